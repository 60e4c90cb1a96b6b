import Verif.Impl.HeaderSpec
import Verif.Impl.Order
import Verif.Props.Impl
/-
The generated type definitions compile and mean what they should.
-/
set_option linter.unusedSimpArgs false
set_option linter.unusedVariables false
namespace Verif.Impl.Spec
open Verif.Py Verif.Impl

theorem compile_append (outside : String → Bool) (a b : List CLine) : ∀ c,
    compile outside c (a ++ b) = (compile outside c a).bind fun c' => compile outside c' b := by
  induction a with
  | nil => intro c; rfl
  | cons l a ih =>
    intro c
    simp only [List.cons_append, compile]
    cases compileLine outside c l with
    | none => rfl
    | some c' => exact ih c'

theorem dictGet_append_new {α : Type} (d : List (String × α)) (n : String) (t : α)
    (h : dictGet d n = none) : dictGet (d ++ [(n, t)]) n = some t := by
  induction d with
  | nil => simp [dictGet]
  | cons p d ih =>
    obtain ⟨k, v⟩ := p
    simp only [dictGet] at h
    split at h
    · simp at h
    · rename_i hk
      simp only [List.cons_append, dictGet, hk]
      simpa using ih h

theorem dictGet_append_old {α : Type} (d : List (String × α)) (n m : String) (t u : α)
    (h : dictGet d m = some u) : dictGet (d ++ [(n, t)]) m = some u := by
  induction d with
  | nil => simp [dictGet] at h
  | cons p d ih =>
    obtain ⟨k, v⟩ := p
    simp only [List.cons_append, dictGet] at h ⊢
    split at h
    · rename_i hk; simp [hk, h]
    · rename_i hk; simp only [hk]; simpa using ih h

theorem dictGet_none {α : Type} (d : List (String × α)) (n : String)
    (h : ∀ t, (n, t) ∉ d) : dictGet d n = none := by
  cases hg : dictGet d n with
  | none => rfl
  | some t => exact absurd (dictGet_mem d n t hg) (h t)

theorem name_eq {env : Env} {st : State} {x : XElem} {obj : RObj} (h : Describes env st x obj) :
    XElem.name x = nameOf obj := by
  cases h <;> rfl

theorem elsewhere_of_external {env : Env} {st : State} {x : XElem} {obj : RObj}
    (h : Describes env st x obj) (he : External obj) : Elsewhere x := by
  cases he <;> cases h <;> first
    | exact .baseNone _ _
    | exact .baseEmpty _ _
    | exact .impl _ _ _ _ _ _ _ ‹_›

theorem not_elsewhere {env : Env} {st : State} {x : XElem} {obj : RObj} (hown : OwnRefs env)
    (hx : env x.ref = some x) (h : Describes env st x obj) (he : ¬ External obj) : ¬ Elsewhere x := by
  intro hs
  cases hs with
  | baseNone r n => cases h; exact he (.baseNone _ _)
  | baseEmpty r n => cases h; exact he (.baseEmpty _ _)
  | impl r n c s e p subs hr =>
    cases h with
    | value => exact he (.scalar _ _ _ _ _ hr)
    | typeRef => exact hr (hown _ _ _ _ _ _ _ hx)
    | array => exact he (.array _ _ _ _ _ hr)
    | record => exact he (.record _ _ _ _ _ hr)
    | pointerValue => exact he (.pointer _ _ _ _ _ hr)
    | pointerRef => exact he (.pointer _ _ _ _ _ hr)

/-- What a model element used in a declaration stands for is known under the text used for it. -/
def Known (env : Env) (outside : String → Bool) (st : State) (c : CEnv) (o : Oid) : Prop :=
  ∃ obj x t, st.objs[o]? = some obj ∧ env x.ref = some x ∧ x.ref = obj.ref ∧ CType env x t ∧
    resolve outside c (nameOf obj) = some t

/-- The element a reference of a described element leads to is the one the model element stands
for. -/
theorem model_of {env : Env} {st : State} (hok : EnvOk env) (hn : env "None" = none)
    (inv : Inv env st) {r : Option String} {o : Oid} (h : modelOf env st (target r) o)
    {obj : RObj} {x : XElem} (ho : st.objs[o]? = some obj) (hx : env x.ref = some x)
    (hr : x.ref = obj.ref) : ∃ q, r = some q ∧ env q = some x := by
  obtain ⟨q, y, hq, hy, ht⟩ := h
  simp only [target, Option.some.injEq] at hq
  obtain ⟨obj', ho', hr'⟩ := inv.get _ _ ht
  rw [ho] at ho'; cases ho'
  have hyx : env y.ref = some y := by
    obtain ⟨x', h1, h2, h3, -⟩ := inv.desc _ _ ho
    rcases hok _ _ hy with hb | ⟨-, hb⟩
    · exact hb
    · exact absurd (hb _ (by rw [← hr', ← h2]; exact h1)) (describes_type h3)
  rw [← hr', ← hr, hx] at hyx
  cases hyx
  cases r with
  | none => simp only [refStr] at hq; rw [← hq, hn] at hy; simp at hy
  | some q' => simp only [refStr] at hq; exact ⟨q', rfl, by rw [hq]; exact hy⟩

theorem resolve_outside {outside : String → Bool} {c : CEnv} {s : String}
    (hno : ∀ n t, (n, t) ∈ c.names → outside n = false) (h : outside s = true) :
    resolve outside c s = some (.outside s) := by
  have : dictGet c.names s = none := dictGet_none _ _ fun t ht => by
    have := hno s t ht
    simp [h] at this
  simp [resolve, this, h]

/-- An element of an array or a record: its text is known and stands for its type. -/
theorem elem_known {env : Env} {outside : String → Bool} {st : State} {c : CEnv}
    (hok : EnvOk env) (hn : env "None" = none) (inv : Inv env st) (hfit : CFit env outside)
    (hno : ∀ n t, (n, t) ∈ c.names → outside n = false)
    {s : SubElem} {e : ElemType} {text : TypeText}
    (hd : ElemDescribes env st s e) (ht : elemText st.objs e = .ok text)
    (hk : ∀ o, text = .named o → Known env outside st c o) :
    ∃ t, SubCType env s t ∧ resolve outside c (typeText st.objs text) = some t := by
  cases hd with
  | value p ps o hc hp hm =>
    simp only [elemText] at ht
    split at ht
    · rename_i r n native hb
      by_cases hnat : truthy native = true
      · simp only [hnat, if_true, Except.ok.injEq] at ht
        subst ht
        cases native with
        | none => simp [truthy] at hnat
        | some nt =>
          simp only [truthy, decide_eq_true_eq] at hnat
          obtain ⟨x, hx, hr, hdx, -⟩ := inv.desc _ _ hb
          cases hdx
          obtain ⟨q, hq, hy⟩ := model_of hok hn inv hm hb hx hr
          refine ⟨.outside nt, .value hc hp hq hy (.base (by simpa using hnat)), ?_⟩
          exact resolve_outside (s := nt) hno (hfit.native hy (by simpa using hnat))
      · simp only [hnat, Except.ok.injEq] at ht
        simp only [Bool.false_eq_true, if_false] at ht
        subst ht
        obtain ⟨obj, x, t, ho, hx, hr, hct, hres⟩ := hk o rfl
        obtain ⟨q, hq, hy⟩ := model_of hok hn inv hm ho hx hr
        exact ⟨t, .value hc hp hq hy hct, by simpa [typeText, ho] using hres⟩
    · simp at ht
  | typeRef p ps o hc hp hm =>
    simp only [elemText, Except.ok.injEq] at ht
    subst ht
    obtain ⟨obj, x, t, ho, hx, hr, hct, hres⟩ := hk o rfl
    obtain ⟨q, hq, hy⟩ := model_of hok hn inv hm ho hx hr
    exact ⟨t, .typeRef hc hp hq hy hct, by simpa [typeText, ho] using hres⟩

theorem elems_known {env : Env} {outside : String → Bool} {st : State} {c : CEnv}
    (hok : EnvOk env) (hn : env "None" = none) (inv : Inv env st) (hfit : CFit env outside)
    (hno : ∀ n t, (n, t) ∈ c.names → outside n = false)
    {subs : List SubElem} {es : List (String × ElemType)} {ms : List (String × TypeText)}
    (hd : ElemsDescribe env st subs es)
    (ht : mapE (fun e => (elemText st.objs e.2).map fun x => (e.1, x)) es = .ok ms)
    (hk : ∀ m ∈ ms, ∀ o, m.2 = .named o → Known env outside st c o) :
    ∃ ts, SubCTypes env subs ts ∧ ms.map (·.1) = subs.map (·.name) ∧
      resolveAll outside c (ms.map fun m => (m.1, typeText st.objs m.2)) = some ts := by
  induction hd generalizing ms with
  | nil => simp only [mapE, Except.ok.injEq] at ht; subst ht; exact ⟨[], .nil, rfl, rfl⟩
  | cons s ss t ts hd1 hd2 ih =>
    simp only [mapE] at ht
    cases he : elemText st.objs t with
    | error e => simp [he, Except.map] at ht
    | ok text =>
      simp only [he, Except.map] at ht
      split at ht
      · simp at ht
      · rename_i ms' hms
        simp only [Except.ok.injEq] at ht
        subst ht
        obtain ⟨u, hu, hru⟩ := elem_known hok hn inv hfit hno hd1 he
          (fun o ho => hk (s.name, text) (by simp) o ho)
        obtain ⟨us, hus, hnames, hrs⟩ := ih hms (fun m hm o ho => hk m (by simp [hm]) o ho)
        exact ⟨(s.name, u) :: us, .cons hu hus, by simp [hnames],
          by simp [resolveAll, hru, hrs]⟩

/-- One definition: it compiles, and declares the name with the right type. -/
theorem decl_ok {env : Env} {outside : String → Bool} {st : State} {c : CEnv}
    (hok : EnvOk env) (hn : env "None" = none) (inv : Inv env st) (hfit : CFit env outside)
    (hown : OwnRefs env)
    (hno : ∀ n t, (n, t) ∈ c.names → outside n = false)
    {o : Oid} {obj : RObj} {d : Decl} {x : XElem} (ho : st.objs[o]? = some obj)
    (hne : ¬ External obj) (hd : genDecl st.objs o = .ok d) (hx : env x.ref = some x)
    (hr : x.ref = obj.ref) (hdesc : Describes env st x obj)
    (hk : ∀ i ∈ Decl.uses d, Known env outside st c i)
    (hfresh : dictGet c.names (nameOf obj) = none) (hout : outside (nameOf obj) = false)
    (htag : dictGet c.tags ("Rte_struct_" ++ nameOf obj) = none) :
    ∃ t c', CType env x t ∧ compile outside c (declLines st.objs d) = some c' ∧
      c'.names = c.names ++ [(nameOf obj, t)] ∧
      (c'.tags = c.tags ∨ ∃ u, c'.tags = c.tags ++ [("Rte_struct_" ++ nameOf obj, u)]) := by
  have hels := not_elsewhere hown hx hdesc hne
  have decl : ∀ t, declare outside c (nameOf obj) t =
      some { c with names := c.names ++ [(nameOf obj, t)] } := by
    intro t; simp [declare, hout, hfresh]
  unfold genDecl at hd
  rw [ho] at hd
  cases hdesc with
  | base r n native =>
    simp only [Except.ok.injEq] at hd
    subst hd
    cases native with
    | none => exact absurd (.baseNone _ _) hne
    | some s =>
      have hs : s ≠ "" := by rintro rfl; exact hne (.baseEmpty _ _)
      refine ⟨.outside s, { c with names := c.names ++ [(n, .outside s)] }, .base hs, ?_, rfl, .inl rfl⟩
      have := resolve_outside (c := c) hno (hfit.native hx hs)
      simp only [declLines, typeText, compile, compileLine, Option.getD_some, this]
      rw [show n = nameOf (.base r n (some s)) from rfl, decl]
  | value r n sym sy em p ps subs b hsy hm =>
    simp only [Except.ok.injEq] at hd
    subst hd
    obtain ⟨obj', y, t, ho', hy, hry, hct, hres⟩ := hk b (by simp [Decl.uses])
    obtain ⟨q, hq, hqy⟩ := model_of hok hn inv hm ho' hy hry
    refine ⟨t, { c with names := c.names ++ [(n, t)] }, .value hels hq hqy hct, ?_, rfl, .inl rfl⟩
    simp only [declLines, typeText, ho', compile, compileLine, hres]
    rw [show n = nameOf (.scalar r n sy em b) from rfl, decl]
  | typeRef r n sym sy em p ps subs b hsy hm =>
    simp only [Except.ok.injEq] at hd
    subst hd
    obtain ⟨obj', y, t, ho', hy, hry, hct, hres⟩ := hk b (by simp [Decl.uses])
    obtain ⟨q, hq, hqy⟩ := model_of hok hn inv hm ho' hy hry
    refine ⟨t, { c with names := c.names ++ [(n, t)] }, .typeRef hels hq hqy hct, ?_, rfl, .inl rfl⟩
    simp only [declLines, typeText, ho', compile, compileLine, hres]
    rw [show n = nameOf (.refType r n sy b) from rfl, decl]
  | array r n sym sy em props s size e hsy hsize hde =>
    simp only at hd
    cases he : elemText st.objs e with
    | error er => simp [he, Except.map] at hd
    | ok text =>
      simp only [he, Except.map, Except.ok.injEq] at hd
      subst hd
      obtain ⟨t, hst, hres⟩ := elem_known hok hn inv hfit hno hde he
        (fun i hi => hk i (by subst hi; simp [Decl.uses]))
      have h0 : size ≠ 0 := by
        rintro rfl
        exact hfit.sizes hx hsize
      refine ⟨.array size t, { c with names := c.names ++ [(n, .array size t)] }, .array hels hsize hst, ?_, rfl, .inl rfl⟩
      simp only [declLines, compile, compileLine, hres]
      rw [if_neg h0, show n = nameOf (.array r n sy em (s.name, size, e)) from rfl, decl]
  | record r n sym sy em props subs es hsy hde =>
    simp only at hd
    · obtain ⟨ms, he, rfl⟩ := map_ok hd
      obtain ⟨ts, hts, hnames, hres⟩ := elems_known hok hn inv hfit hno hde he
        (fun m hm i hi => hk i (by
          simp only [Decl.uses, List.mem_filterMap]
          exact ⟨m, hm, by rw [hi]⟩))
      obtain ⟨hsub, hnodup⟩ := hfit.members hx
      have hms : ¬ ((ms.map fun m => (m.1, typeText st.objs m.2)) = [] ∨
          ¬ ((ms.map fun m => (m.1, typeText st.objs m.2)).map (·.1)).Nodup ∨
          (dictGet c.tags ("Rte_struct_" ++ n)).isSome) := by
        rintro (h | h | h)
        · rw [List.map_eq_nil_iff] at h
          subst h
          simp only [List.map_nil] at hnames
          exact hsub (List.map_eq_nil_iff.1 hnames.symm)
        · refine h ?_
          rw [List.map_map]
          have : ((fun x : String × String => x.1) ∘ fun m : String × TypeText =>
            (m.1, typeText st.objs m.2)) = (·.1) := rfl
          rw [this, hnames]
          exact hnodup
        · simp only [nameOf] at htag
          simp [htag] at h
      refine ⟨.struct ("Rte_struct_" ++ n) ts, ⟨c.names ++ [(n, .struct ("Rte_struct_" ++ n) ts)],
        c.tags ++ [("Rte_struct_" ++ n, .struct ("Rte_struct_" ++ n) ts)]⟩, .record hels hts, ?_, rfl, .inr ⟨_, rfl⟩⟩
      simp only [declLines, compile, compileLine]
      rw [if_neg hms, hres]
      simp only [nameOf] at htag hfresh hout ⊢
      simp only [dictGet_append_new _ _ _ htag, declare, hout, hfresh, Option.isSome_none,
        Bool.or_self, Bool.false_eq_true, if_false]
  | pointerValue => simp at hd
  | pointerRef => simp at hd

end Verif.Impl.Spec
