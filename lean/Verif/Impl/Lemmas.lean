import Verif.Impl.Spec
/- Helper lemmas for C32: the memo table invariant. -/
set_option linter.unusedSimpArgs false
set_option linter.unusedVariables false
namespace Verif.Impl
open Verif.Py Spec

/-- `x` requests `y` while it is created. -/
def Dep (env : Env) (x y : XElem) : Prop := ∃ r, Except.ok r ∈ (planOf x).steps ∧ env r = some y

inductive Reach (env : Env) : XElem → XElem → Prop
  | refl (x) : Reach env x x
  | step (x y z) : Dep env x y → Reach env y z → Reach env x z

theorem Reach.snoc {env : Env} {x y z : XElem} (h : Reach env x y) (d : Dep env y z) :
    Reach env x z := by
  induction h with
  | refl x => exact .step _ _ _ d (.refl _)
  | step x y w hd _ ih => exact .step _ _ _ hd (ih d)

/-- No infinite chain of requests. -/
def Grounded (env : Env) (x : XElem) : Prop := Acc (fun y x => Dep env x y) x

theorem Grounded.no_cycle {env : Env} {x : XElem} (h : Grounded env x) :
    ∀ d, Dep env x d → Reach env d x → False := by
  induction h with
  | intro x _ ih =>
    intro d hd hr
    cases hr with
    | refl _ => exact ih _ hd _ hd (.refl _)
    | step _ y _ hdy hy => exact ih d hd y hdy (hy.snoc hd)

structure Ext (st st' : State) : Prop where
  objs : ∃ l, st'.objs = st.objs ++ l
  types : ∀ k o, dictGet st.types k = some o → dictGet st'.types k = some o
  sources : ∀ r ∈ st.sources, r ∈ st'.sources

theorem Ext.refl (st : State) : Ext st st := ⟨⟨[], by simp⟩, fun _ _ h => h, fun _ h => h⟩

theorem Ext.trans {a b c : State} (h : Ext a b) (g : Ext b c) : Ext a c := by
  obtain ⟨l, hl⟩ := h.objs
  obtain ⟨m, hm⟩ := g.objs
  exact ⟨⟨l ++ m, by rw [hm, hl, List.append_assoc]⟩, fun k o x => g.types _ _ (h.types _ _ x),
    fun r x => g.sources _ (h.sources _ x)⟩

theorem Ext.get {a b : State} (h : Ext a b) {i : Nat} {o : RObj} (x : a.objs[i]? = some o) :
    b.objs[i]? = some o := by
  obtain ⟨l, hl⟩ := h.objs
  rw [hl, List.getElem?_append]
  have : i < a.objs.length := by
    have := List.getElem?_eq_some_iff.mp x
    exact this.1
  rw [if_pos this]; exact x

theorem modelOf_ext {env : Env} {a b : State} (h : Ext a b) {r o} (x : modelOf env a r o) :
    modelOf env b r o := by
  obtain ⟨q, e, h1, h2, h3⟩ := x
  exact ⟨q, e, h1, h2, h.types _ _ h3⟩

theorem elemDescribes_ext {env : Env} {a b : State} (h : Ext a b) {s t}
    (x : ElemDescribes env a s t) : ElemDescribes env b s t := by
  cases x with
  | value p ps o h1 h2 h3 => exact .value _ _ _ _ h1 h2 (modelOf_ext h h3)
  | typeRef p ps o h1 h2 h3 => exact .typeRef _ _ _ _ h1 h2 (modelOf_ext h h3)

theorem elemsDescribe_ext {env : Env} {a b : State} (h : Ext a b) {ss ts}
    (x : ElemsDescribe env a ss ts) : ElemsDescribe env b ss ts := by
  induction x with
  | nil => exact .nil
  | cons s ss t ts h1 _ ih => exact .cons _ _ _ _ (elemDescribes_ext h h1) ih

theorem describes_ext {env : Env} {a b : State} (h : Ext a b) {x o} (d : Describes env a x o) :
    Describes env b x o := by
  cases d with
  | base => exact .base _ _ _
  | value _ _ _ _ _ _ _ _ _ h1 h2 => exact .value _ _ _ _ _ _ _ _ _ h1 (modelOf_ext h h2)
  | typeRef _ _ _ _ _ _ _ _ _ h1 h2 => exact .typeRef _ _ _ _ _ _ _ _ _ h1 (modelOf_ext h h2)
  | array _ _ _ _ _ _ _ _ _ h1 h2 h3 =>
    exact .array _ _ _ _ _ _ _ _ _ h1 h2 (elemDescribes_ext h h3)
  | record _ _ _ _ _ _ _ _ h1 h2 => exact .record _ _ _ _ _ _ _ _ h1 (elemsDescribe_ext h h2)
  | pointerValue _ _ _ _ _ _ _ _ _ _ _ h1 h2 h3 =>
    exact .pointerValue _ _ _ _ _ _ _ _ _ _ _ h1 h2 (modelOf_ext h h3)
  | pointerRef _ _ _ _ _ _ _ _ _ _ _ h1 h2 h3 =>
    exact .pointerRef _ _ _ _ _ _ _ _ _ _ _ h1 h2 (modelOf_ext h h3)

structure Inv (env : Env) (st : State) : Prop where
  get : ∀ r o, dictGet st.types r = some o → ∃ obj, st.objs[o]? = some obj ∧ obj.ref = r
  all : ∀ (o : Nat) obj, st.objs[o]? = some obj → dictGet st.types obj.ref = some o
  down : ∀ (o : Nat) obj, st.objs[o]? = some obj → ∀ c ∈ obj.children, c < o
  desc : ∀ (o : Nat) obj, st.objs[o]? = some obj →
    ∃ x, env x.ref = some x ∧ x.ref = obj.ref ∧ Describes env st x obj ∧ Grounded env x

theorem Inv.empty (env : Env) : Inv env State.empty :=
  ⟨by simp [State.empty, dictGet], by simp [State.empty], by simp [State.empty],
    by simp [State.empty]⟩

/-- What a request for reference `r` guarantees. -/
structure Post (env : Env) (st : State) (x : XElem) (res : State × Except PyErr Oid) : Prop where
  inv : Inv env res.1
  ext : Ext st res.1
  fresh : ∀ k o, dictGet res.1.types k = some o → dictGet st.types k = none →
    ∃ y, y.ref = k ∧ Reach env x y
  ok : ∀ o, res.2 = .ok o → dictGet res.1.types x.ref = some o ∧ Grounded env x ∧ env x.ref = some x

def RecSpec (env : Env) (rec : State → String → State × Except PyErr Oid) : Prop :=
  ∀ st r, Inv env st →
    (∀ x, env r = some x → Post env st x (rec st r)) ∧
    (env r = none → (rec st r).1 = st ∧ ∃ e, (rec st r).2 = .error e)

/-- References requested successfully, with the objects obtained. -/
inductive Got (env : Env) (st : State) : List (Except PyErr String) → List Oid → Prop
  | nil : Got env st [] []
  | cons (r rs x o os) : env r = some x → dictGet st.types x.ref = some o → Grounded env x →
      Got env st rs os → Got env st (.ok r :: rs) (o :: os)

theorem Got.ext {env : Env} {a b : State} (h : Ext a b) {rs os} (g : Got env a rs os) :
    Got env b rs os := by
  induction g with
  | nil => exact .nil
  | cons r rs x o os h1 h2 h3 _ ih => exact .cons _ _ _ _ _ h1 (h.types _ _ h2) h3 ih

theorem runSteps_spec {env : Env} {rec} (hrec : RecSpec env rec) (steps : List (Except PyErr String)) :
    ∀ st, Inv env st →
      Inv env (runSteps rec st steps).1 ∧ Ext st (runSteps rec st steps).1 ∧
      (∀ k o, dictGet (runSteps rec st steps).1.types k = some o → dictGet st.types k = none →
        ∃ r x y, Except.ok r ∈ steps ∧ env r = some x ∧ y.ref = k ∧ Reach env x y) ∧
      (∀ os, (runSteps rec st steps).2 = .ok os → Got env (runSteps rec st steps).1 steps os) := by
  induction steps with
  | nil =>
    intro st hi
    refine ⟨hi, Ext.refl _, ?_, ?_⟩
    · intro k o h1 h2
      simp only [runSteps] at h1
      rw [h1] at h2; exact absurd h2 (by simp)
    · intro os h
      simp only [runSteps, Except.ok.injEq] at h
      subst h; exact .nil
  | cons s rest ih =>
    intro st hi
    cases s with
    | error e =>
      refine ⟨hi, Ext.refl _, ?_, ?_⟩
      · intro k o h1 h2
        simp only [runSteps] at h1
        rw [h1] at h2; exact absurd h2 (by simp)
      · intro os h; simp [runSteps] at h
    | ok r =>
      obtain ⟨hs, hn⟩ := hrec st r hi
      cases hx : env r with
      | none =>
        obtain ⟨h1, e, h2⟩ := hn hx
        have hrs : runSteps rec st (.ok r :: rest) = (st, .error e) := by
          rw [runSteps]
          generalize hq : rec st r = q at h1 h2
          obtain ⟨q1, q2⟩ := q
          simp only at h1 h2
          subst h1; subst h2; rfl
        rw [hrs]
        refine ⟨hi, Ext.refl _, ?_, ?_⟩
        · intro k o h1 h2
          simp only at h1
          rw [h1] at h2; exact absurd h2 (by simp)
        · intro os h; simp at h
      | some x =>
        have hp := hs x hx
        rw [runSteps]
        generalize hq : rec st r = q at hp
        obtain ⟨st1, q2⟩ := q
        cases q2 with
        | error e =>
          refine ⟨hp.inv, hp.ext, ?_, ?_⟩
          · intro k o h1 h2
            obtain ⟨y, hy, hr⟩ := hp.fresh k o h1 h2
            exact ⟨r, x, y, by simp, hx, hy, hr⟩
          · intro os h; simp at h
        | ok o =>
          obtain ⟨i1, i2, i3, i4⟩ := ih st1 hp.inv
          have hfresh : ∀ k o, dictGet (runSteps rec st1 rest).1.types k = some o →
              dictGet st.types k = none →
              ∃ r' x y, Except.ok r' ∈ (.ok r :: rest : List (Except PyErr String)) ∧ env r' = some x ∧
                y.ref = k ∧ Reach env x y := by
            intro k o h1 h2
            cases hk : dictGet st1.types k with
            | none =>
              obtain ⟨r', x', y, a, b, c⟩ := i3 k o h1 hk
              exact ⟨r', x', y, List.mem_cons_of_mem _ a, b, c⟩
            | some o' =>
              obtain ⟨y, hy, hr⟩ := hp.fresh k o' hk h2
              exact ⟨r, x, y, by simp, hx, hy, hr⟩
          simp only
          generalize hq2 : runSteps rec st1 rest = w at i1 i2 i3 i4 hfresh ⊢
          obtain ⟨st2, w2⟩ := w
          cases w2 with
          | error e =>
            refine ⟨i1, hp.ext.trans i2, hfresh, ?_⟩
            intro os h; simp at h
          | ok os =>
            refine ⟨i1, hp.ext.trans i2, hfresh, ?_⟩
            intro os' h
            simp only [Except.ok.injEq] at h
            subst h
            obtain ⟨a, b⟩ := hp.ok o rfl
            exact .cons _ _ x _ _ hx (i2.types _ _ a) b.1 (i4 os rfl)

theorem Got.grounded {env : Env} {st : State} {rs os} (g : Got env st rs os) :
    ∀ r x, Except.ok r ∈ rs → env r = some x → Grounded env x := by
  induction g with
  | nil => intro r x h; simp at h
  | cons r rs x o os h1 h2 h3 _ ih =>
    intro r' x' hr hx
    rcases List.mem_cons.mp hr with h | h
    · cases h; rw [h1] at hx; cases hx; exact h3
    · exact ih r' x' h hx

theorem Got.lt {env : Env} {st : State} (hi : Inv env st) {rs os} (g : Got env st rs os) :
    ∀ o ∈ os, o < st.objs.length := by
  induction g with
  | nil => intro o h; simp at h
  | cons r rs x o os h1 h2 h3 _ ih =>
    intro o' ho
    rcases List.mem_cons.mp ho with h | h
    · subst h
      obtain ⟨obj, h4, _⟩ := hi.get _ _ h2
      exact (List.getElem?_eq_some_iff.mp h4).1
    · exact ih o' h

/-- one requested reference -/
theorem Got.one {env : Env} {st : State} {s : Except PyErr String} {os} (g : Got env st [s] os) :
    ∃ r x o, s = .ok r ∧ os = [o] ∧ env r = some x ∧ dictGet st.types x.ref = some o := by
  cases g with
  | cons r _ x o os' h1 h2 h3 g' => cases g'; exact ⟨r, x, o, rfl, rfl, h1, h2⟩

theorem symbolIs (n : String) (s : Option String) : SymbolIs n s (symbolOf n s) := by
  cases s with
  | none => exact .default
  | some s => exact .own s

theorem first_ok {α : Type} {ps : Option (List α)} {p : α} (h : first ps = .ok p) :
    ∃ rest, ps = some (p :: rest) := by
  unfold first at h
  split at h <;> simp at h
  subst h; exact ⟨_, rfl⟩

theorem map_ok {α β : Type} {f : α → β} {e : Except PyErr α} {b : β} (h : e.map f = .ok b) :
    ∃ a, e = .ok a ∧ f a = b := by
  cases e with
  | error e => simp [Except.map] at h
  | ok a => exact ⟨a, rfl, by simpa [Except.map] using h⟩

theorem subStep_describes {env : Env} {st : State} {s : SubElem} {r : String} {x : XElem} {o : Oid}
    (h : subStep s = .ok r) (hx : env r = some x) (ho : dictGet st.types x.ref = some o) :
    ElemDescribes env st s (subType s o) := by
  unfold subStep at h
  split at h
  · rename_i hc
    obtain ⟨p, hp, rfl⟩ := map_ok h
    obtain ⟨rest, hr⟩ := first_ok hp
    rw [subType, if_pos hc]
    exact .value _ _ _ _ hc hr ⟨_, x, rfl, hx, ho⟩
  · rename_i hc
    obtain ⟨p, hp, rfl⟩ := map_ok h
    obtain ⟨rest, hr⟩ := first_ok hp
    rw [subType, if_neg (by rw [hc]; decide)]
    exact .typeRef _ _ _ _ hc hr ⟨_, x, rfl, hx, ho⟩
  · simp at h

theorem recordElems_describe {env : Env} {st : State} :
    ∀ (subs : List SubElem) (os : List Oid), Got env st (subs.map subStep) os →
      ElemsDescribe env st subs (recordElems subs os) := by
  intro subs
  induction subs with
  | nil => intro os g; cases g; exact .nil
  | cons s ss ih =>
    intro os g
    rw [List.map_cons] at g
    generalize hs : subStep s = q at g
    cases g with
    | cons r _ x o os' h1 h2 h3 g' =>
      rw [recordElems]
      exact .cons _ _ _ _ (subStep_describes hs h1 h2) (ih _ g')

theorem recordElems_children (subs : List SubElem) (os : List Oid) :
    ∀ c ∈ (recordElems subs os).map (·.2.child), c ∈ os := by
  induction subs generalizing os with
  | nil => intro c h; simp [recordElems] at h
  | cons s ss ih =>
    cases os with
    | nil => intro c h; simp [recordElems] at h
    | cons o os =>
      intro c h
      simp only [recordElems, List.map_cons, List.mem_cons] at h
      rcases h with h | h
      · subst h
        unfold subType; split <;> simp [ElemType.child]
      · exact List.mem_cons_of_mem _ (ih os c h)

/-- The object made by a plan stands for the element, under its reference. -/
theorem finish_describes {env : Env} {st : State} {x : XElem} {os : List Oid} {obj : RObj}
    (g : Got env st (planOf x).steps os) (h : (planOf x).finish os = .ok obj) :
    Describes env st x obj ∧ obj.ref = x.ref ∧ ∀ c ∈ obj.children, c ∈ os := by
  cases x with
  | other r c => simp [planOf] at h
  | base r n native =>
    simp only [planOf, Except.ok.injEq] at h
    subst h
    exact ⟨.base _ _ _, rfl, by simp [RObj.children]⟩
  | impl r n category sym em props subs =>
    simp only [planOf] at g h
    split at g
    · simp at h
    · obtain ⟨q, x, o, hs, rfl, hx, ho⟩ := g.one
      simp only [Except.ok.injEq] at h
      subst h
      obtain ⟨p, hp, rfl⟩ := map_ok hs
      obtain ⟨rest, rfl⟩ := first_ok hp
      exact ⟨.value _ _ _ _ _ _ _ _ _ (symbolIs _ _) ⟨_, x, rfl, hx, ho⟩, rfl,
        by simp [RObj.children]⟩
    · obtain ⟨q, x, o, hs, rfl, hx, ho⟩ := g.one
      simp only [Except.ok.injEq] at h
      subst h
      obtain ⟨p, hp, rfl⟩ := map_ok hs
      obtain ⟨rest, rfl⟩ := first_ok hp
      exact ⟨.typeRef _ _ _ _ _ _ _ _ _ (symbolIs _ _) ⟨_, x, rfl, hx, ho⟩, rfl,
        by simp [RObj.children]⟩
    · simp only at h
      cases hl : subs.getLast? with
      | none => simp [hl] at h
      | some s =>
        simp only [hl] at g h
        obtain ⟨q, x, o, hs, rfl, hx, ho⟩ := g.one
        simp only [finishArray] at h
        split at h
        · simp at h
        · rename_i size hsize
          split at h
          · simp at h
          · split at h
            · simp at h
            · rename_i hlen
              simp only [Except.ok.injEq] at h
              subst h
              have hsubs : subs = [s] := by
                match subs, hlen, hl with
                | [], _, hl => simp at hl
                | [a], _, hl => simpa using hl
                | a :: b :: c, hlen, _ => simp at hlen
              subst hsubs
              refine ⟨.array _ _ _ _ _ _ _ _ _ (symbolIs _ _) hsize
                (subStep_describes hs hx ho), rfl, ?_⟩
              simp only [RObj.children, List.mem_singleton]
              intro c hc
              subst hc
              unfold subType; split <;> rfl
    · simp only [Except.ok.injEq] at h
      subst h
      refine ⟨.record _ _ _ _ _ _ _ _ (symbolIs _ _) (recordElems_describe _ _ g), rfl, ?_⟩
      simp only [RObj.children]
      exact recordElems_children _ _
    · obtain ⟨q, x, o, hs, rfl, hx, ho⟩ := g.one
      simp only [Except.ok.injEq] at h
      subst h
      split at hs
      · simp at hs
      · rename_i p hp
        obtain ⟨rest, rfl⟩ := first_ok hp
        split at hs
        · simp at hs
        · rename_i cat pp hptr
          split at hs
          · obtain ⟨w, hw, rfl⟩ := map_ok hs
            obtain ⟨rest', rfl⟩ := first_ok hw
            exact ⟨.pointerValue _ _ _ _ _ _ _ _ _ _ _ (symbolIs _ _) hptr ⟨_, x, rfl, hx, ho⟩,
              rfl, by simp [RObj.children]⟩
          · obtain ⟨w, hw, rfl⟩ := map_ok hs
            obtain ⟨rest', rfl⟩ := first_ok hw
            exact ⟨.pointerRef _ _ _ _ _ _ _ _ _ _ _ (symbolIs _ _) hptr ⟨_, x, rfl, hx, ho⟩,
              rfl, by simp [RObj.children]⟩
          · simp at hs
    · simp at h

theorem addSource_inv {env : Env} {st : State} (h : Inv env st) (r : String) :
    Inv env (st.addSource r) := by
  unfold State.addSource
  split
  · exact h
  · exact ⟨h.get, h.all, h.down, fun o obj ho => by
      obtain ⟨x, h1, h2, h3, h4⟩ := h.desc o obj ho
      exact ⟨x, h1, h2, describes_ext (a := st)
        (b := { st with sources := r :: st.sources })
        ⟨⟨[], by simp⟩, fun _ _ h => h, fun _ h => by simp [h]⟩ h3, h4⟩⟩

theorem addSource_ext (st : State) (r : String) : Ext st (st.addSource r) := by
  unfold State.addSource
  split
  · exact .refl _
  · exact ⟨⟨[], by simp⟩, fun _ _ h => h, fun _ h => by simp [h]⟩

theorem addSource_types (st : State) (r : String) : (st.addSource r).types = st.types := by
  unfold State.addSource; split <;> rfl

theorem dep_grounded {env : Env} {st : State} {x os} (g : Got env st (planOf x).steps os) :
    Grounded env x :=
  Acc.intro x fun y hy => by
    obtain ⟨r, hr, hx⟩ := hy
    exact g.grounded r y hr hx

/-- Adding a fresh object keeps everything. -/
theorem add_spec {env : Env} {st : State} (hi : Inv env st) {x : XElem} {obj : RObj}
    (hx : env x.ref = some x) (href : obj.ref = x.ref) (hd : Describes env st x obj)
    (hg : Grounded env x) (hc : ∀ c ∈ obj.children, c < st.objs.length)
    (hfresh : dictGet st.types x.ref = none) :
    Inv env (st.add obj).1 ∧ Ext st (st.add obj).1 ∧
      dictGet (st.add obj).1.types x.ref = some st.objs.length ∧
      ∀ k o, dictGet (st.add obj).1.types k = some o → dictGet st.types k = none → k = x.ref := by
  have hext : Ext st (st.add obj).1 := by
    refine ⟨⟨[obj], rfl⟩, ?_, fun _ h => h⟩
    intro k o h
    simp only [State.add, dictGet_set]
    split
    · rename_i hk
      rw [← hk, href, hfresh] at h; exact absurd h (by simp)
    · exact h
  refine ⟨⟨?_, ?_, ?_, ?_⟩, hext, ?_, ?_⟩
  · intro r o h
    simp only [State.add, dictGet_set] at h
    split at h
    · rename_i hk
      cases h
      exact ⟨obj, by simp [State.add], hk⟩
    · obtain ⟨obj', h1, h2⟩ := hi.get r o h
      exact ⟨obj', hext.get h1, h2⟩
  · intro o obj' h
    simp only [State.add] at h
    rw [List.getElem?_append] at h
    split at h
    · exact hext.types _ _ (hi.all o obj' h)
    · have : o = st.objs.length := by
        rcases Nat.lt_or_ge (o - st.objs.length) 1 with h' | h'
        · omega
        · rw [List.getElem?_eq_none (by simpa using h')] at h; exact absurd h (by simp)
      subst this
      simp only [Nat.sub_self, List.getElem?_cons_zero, Option.some.injEq] at h
      subst h
      simp [State.add, dictGet_set]
  · intro o obj' h
    simp only [State.add] at h
    rw [List.getElem?_append] at h
    split at h
    · exact hi.down o obj' h
    · have : o = st.objs.length := by
        rcases Nat.lt_or_ge (o - st.objs.length) 1 with h' | h'
        · omega
        · rw [List.getElem?_eq_none (by simpa using h')] at h; exact absurd h (by simp)
      subst this
      simp only [Nat.sub_self, List.getElem?_cons_zero, Option.some.injEq] at h
      subst h
      exact hc
  · intro o obj' h
    simp only [State.add] at h
    rw [List.getElem?_append] at h
    split at h
    · obtain ⟨x', h1, h2, h3, h4⟩ := hi.desc o obj' h
      exact ⟨x', h1, h2, describes_ext hext h3, h4⟩
    · have : o = st.objs.length := by
        rcases Nat.lt_or_ge (o - st.objs.length) 1 with h' | h'
        · omega
        · rw [List.getElem?_eq_none (by simpa using h')] at h; exact absurd h (by simp)
      subst this
      simp only [Nat.sub_self, List.getElem?_cons_zero, Option.some.injEq] at h
      subst h
      exact ⟨x, hx, href.symm, describes_ext hext hd, hg⟩
  · simp [State.add, dictGet_set, href]
  · intro k o h hk
    simp only [State.add, dictGet_set] at h
    split at h
    · rename_i hk'; rw [← hk', href]
    · rw [h] at hk; exact absurd hk (by simp)

theorem reach_back {env : Env} (hok : EnvOk env) {d y : XElem} (h : Reach env d y) :
    LeadsBack env d → LeadsBack env y := by
  induction h with
  | refl x => exact id
  | step x y z hd _ ih =>
    intro _
    obtain ⟨r, _, hr⟩ := hd
    exact ih (hok _ _ hr)

theorem type_back {env : Env} {x : XElem} (h : LeadsBack env x) (hx : ¬ NoType x) :
    env x.ref = some x := by
  rcases h with h | ⟨h, -⟩
  · exact h
  · exact absurd h hx

theorem describes_type {env : Env} {st : State} {x : XElem} {o : RObj} (h : Describes env st x o) :
    ¬ NoType x := by
  rintro ⟨r, c, rfl⟩
  cases h

theorem createFromElement_spec {env : Env} (hok : EnvOk env) {rec} (hrec : RecSpec env rec)
    {st : State} (hi : Inv env st) {x : XElem} (hx : LeadsBack env x) (src : Bool) :
    Post env st x (createFromElement rec st x src) := by
  unfold createFromElement
  cases hm : dictGet st.types x.ref with
  | some o =>
    refine ⟨hi, .refl _, ?_, ?_⟩
    · intro k o' h1 h2
      simp only at h1
      rw [h1] at h2; exact absurd h2 (by simp)
    · intro o' h
      simp only [Except.ok.injEq] at h
      subst h
      refine ⟨hm, ?_⟩
      obtain ⟨obj, h1, h2⟩ := hi.get _ _ hm
      obtain ⟨y, h3, h4, h6, h5⟩ := hi.desc _ _ h1
      rw [h4, h2] at h3
      rcases hx with hx | ⟨-, hx⟩
      · rw [hx] at h3
        cases h3
        exact ⟨h5, hx⟩
      · exact absurd (hx _ h3) (describes_type h6)
  | none =>
    simp only
    generalize hst1 : (if src = true then st.addSource x.ref else st) = st1
    have hi1 : Inv env st1 := by
      subst hst1; split
      · exact addSource_inv hi _
      · exact hi
    have he1 : Ext st st1 := by
      subst hst1; split
      · exact addSource_ext _ _
      · exact .refl _
    have ht1 : st1.types = st.types := by
      subst hst1; split
      · exact addSource_types _ _
      · rfl
    obtain ⟨i1, i2, i3, i4⟩ := runSteps_spec hrec (planOf x).steps st1 hi1
    have hreach : ∀ k o, dictGet (runSteps rec st1 (planOf x).steps).1.types k = some o →
        dictGet st.types k = none → ∃ d y, Dep env x d ∧ y.ref = k ∧ Reach env d y := by
      intro k o h1 h2
      obtain ⟨r, d, y, a, b, c, e⟩ := i3 k o h1 (by rw [ht1]; exact h2)
      exact ⟨d, y, ⟨r, a, b⟩, c, e⟩
    generalize hw : runSteps rec st1 (planOf x).steps = w at *
    obtain ⟨st2, w2⟩ := w
    have hpost : ∀ e, Post env st x (st2, .error e) := by
      intro e
      refine ⟨i1, he1.trans i2, ?_, ?_⟩
      · intro k o h1 h2
        obtain ⟨d, y, a, b, c⟩ := hreach k o h1 h2
        exact ⟨y, b, .step _ _ _ a c⟩
      · intro o h; simp at h
    cases w2 with
    | error e => exact hpost e
    | ok os =>
      have g := i4 os rfl
      simp only
      cases hf : (planOf x).finish os with
      | error e => exact hpost e
      | ok obj =>
        simp only
        obtain ⟨hd, href, hc⟩ := finish_describes g hf
        have hg := dep_grounded g
        have hx := type_back hx (describes_type hd)
        have hfresh : dictGet st2.types x.ref = none := by
          cases hk : dictGet st2.types x.ref with
          | none => rfl
          | some o =>
            obtain ⟨d, y, a, b, c⟩ := hreach _ o hk hm
            exfalso
            rcases reach_back hok c (by obtain ⟨r, _, hr⟩ := a; exact hok _ _ hr) with hy | ⟨-, hy⟩
            · rw [b, hx] at hy
              cases hy
              exact hg.no_cycle d a c
            · exact describes_type hd (hy x (by rw [b]; exact hx))
        obtain ⟨a1, a2, a3, a4⟩ := add_spec i1 hx href hd hg (fun c h => g.lt i1 c (hc c h)) hfresh
        refine ⟨a1, (he1.trans i2).trans a2, ?_, ?_⟩
        · intro k o h1 h2
          cases hk : dictGet st2.types k with
          | none =>
            have := a4 k o h1 hk
            exact ⟨x, this.symm, .refl _⟩
          | some o' =>
            obtain ⟨d, y, a, b, c⟩ := hreach k o' hk h2
            exact ⟨y, b, .step _ _ _ a c⟩
        · intro o h
          simp only [State.add, Except.ok.injEq] at h
          subst h
          exact ⟨a3, hg, hx⟩

theorem find_of_get {env : Env} {r : String} {x : XElem} (h : env r = some x) :
    env.find r = .ok (some x) := by
  unfold Env.get at h
  split at h
  · rename_i hf
    rw [hf, h]
  · cases h

theorem createFromRef_spec {env : Env} (hok : EnvOk env) (n : Nat) :
    ∀ st r src, Inv env st →
      (∀ x, env r = some x → Post env st x (createFromRef n env st r src)) ∧
      (env r = none → (createFromRef n env st r src).1 = st ∧
        ∃ e, (createFromRef n env st r src).2 = .error e) := by
  induction n with
  | zero =>
    intro st r src hi
    refine ⟨fun x hx => ⟨hi, .refl _, ?_, ?_⟩, fun _ => ⟨rfl, _, rfl⟩⟩
    · intro k o h1 h2
      simp only [createFromRef] at h1
      rw [h1] at h2; exact absurd h2 (by simp)
    · intro o h; simp [createFromRef] at h
  | succ n ih =>
    intro st r src hi
    refine ⟨fun x hx => ?_, fun hx => ?_⟩
    · have hb := hok _ _ hx
      simp only [createFromRef, find_of_get hx]
      exact createFromElement_spec hok (fun s q h => ih s q false h) hi hb src
    · simp only [Env.get] at hx
      simp only [createFromRef]
      split at hx
      · rename_i x' hf
        subst hx
        rw [hf]
        exact ⟨rfl, _, rfl⟩
      · rename_i e hf
        rw [hf]
        exact ⟨rfl, _, rfl⟩

theorem recSpec {env : Env} (hok : EnvOk env) (n : Nat) :
    RecSpec env (fun s q => createFromRef n env s q false) :=
  fun s q h => createFromRef_spec hok n s q false h

theorem step_spec {env : Env} (hok : EnvOk env) (n : Nat) {st : State} (hi : Inv env st) (q : Req)
    (hq : q.attached env) :
    Inv env (step n env st q).1 ∧ Ext st (step n env st q).1 ∧
      (∀ o, (step n env st q).2 = .ok o → ∃ x, q.subject env = some x ∧ env x.ref = some x ∧
        dictGet (step n env st q).1.types x.ref = some o) := by
  cases q with
  | byRef r s =>
    obtain ⟨h1, h2⟩ := createFromRef_spec hok n st r s hi
    cases hx : env r with
    | none =>
      obtain ⟨h3, e, h4⟩ := h2 hx
      simp only [step]
      rw [h3, h4]
      exact ⟨hi, .refl _, by intro o h; simp at h⟩
    | some x =>
      have p := h1 x hx
      exact ⟨p.inv, p.ext, fun o h => ⟨x, hx, (p.ok o h).2.2, (p.ok o h).1⟩⟩
  | byElement x s =>
    have p := createFromElement_spec hok (recSpec hok n) hi (.inl hq) s
    exact ⟨p.inv, p.ext, fun o h => ⟨x, rfl, hq, (p.ok o h).1⟩⟩

theorem run_spec {env : Env} (hok : EnvOk env) (n : Nat) (qs : List Req) :
    ∀ st, Inv env st → (∀ q ∈ qs, q.attached env) →
      Inv env (run n env st qs) ∧ Ext st (run n env st qs) := by
  induction qs with
  | nil => intro st hi _; exact ⟨hi, .refl _⟩
  | cons q qs ih =>
    intro st hi hq
    obtain ⟨h1, h2, _⟩ := step_spec hok n hi q (hq q (by simp))
    obtain ⟨h3, h4⟩ := ih _ h1 (fun q h => hq q (by simp [h]))
    exact ⟨h3, h2.trans h4⟩

end Verif.Impl
