import Verif.Impl.HeaderLemmas
/-
C56: the generated C header.
-/
set_option linter.unusedSimpArgs false
set_option linter.unusedVariables false
namespace Verif.Props.ImplHeader
open Verif.Py Verif.Impl Verif.Impl.Spec Verif.Props.Impl

theorem take_succ_flat {α β : Type} (f : α → List β) (l : List α) (k : Nat) (d : α)
    (h : l[k]? = some d) : (l.take (k + 1)).flatMap f = (l.take k).flatMap f ++ f d := by
  rw [List.take_add_one, h]
  simp

/-- C56: for any workspace and any history of requests to the implementation model, the type
definitions generated are accepted by a C compiler that knows the texts of native declarations and
the types declared elsewhere; each type asked for that is not declared elsewhere is then declared
under its name with the C type it stands for in the workspace (base types as their native
declaration, values and type references as what they refer to, arrays with their size and element
type, structures with their members in order); and nothing else is declared.  Partial: names must be
different (`C56_names_counterexample`), and no type reference has a type emitter other than the RTE
(`C56_emitter_counterexample`); names are short names (`C56_symbol_counterexample`). -/
theorem C56_types_partial (limit : Nat) (env : Env) (hok : EnvOk env) (hn : env "None" = none)
    (history : List Req) (hh : ∀ p ∈ history, p.attached env) (outside : String → Bool)
    (hfit : CFit env outside) (hown : OwnRefs env) (decls : List Decl)
    (hd : genTypeDefs (run limit env .empty history) = .ok decls)
    (hdiff : (decls.map Decl.name).Nodup) (hout : ∀ d ∈ decls, outside (Decl.name d) = false) :
    ∃ lines c, typeDefLines (run limit env .empty history) = .ok lines ∧
      compile outside ⟨[], []⟩ lines = some c ∧
      (∀ r ∈ (run limit env .empty history).sources, ∃ x, env r = some x ∧ x.ref = r ∧
        (Elsewhere x ∨ ∃ t, CType env x t ∧ dictGet c.names (XElem.name x) = some t)) ∧
      (∀ n t, (n, t) ∈ c.names → ∃ x, env x.ref = some x ∧ ¬ Elsewhere x ∧ XElem.name x = n ∧
        CType env x t) ∧
      (c.names.map (·.1)) = decls.map Decl.name := by
  obtain ⟨inv, _⟩ := run_spec hok limit history .empty (Inv.empty env) hh
  obtain ⟨order, ho, hlen, hdef⟩ := C31_defined_before_use limit env hok history hh decls hd
  obtain ⟨hnd, hin, hsrc⟩ := C31_each_once limit env hok history hh order ho
  generalize hst : run limit env .empty history = st at *
  have hgen : ∀ (j : Nat) d, decls[j]? = some d → ∃ o, order[j]? = some o ∧
      genDecl st.objs o = .ok d := by
    have hd' := hd
    unfold genTypeDefs at hd'
    rw [ho] at hd'
    exact (mapE_get hd').2
  have main : ∀ k, k ≤ decls.length → ∃ c,
      compile outside ⟨[], []⟩ ((decls.take k).flatMap (declLines st.objs)) = some c ∧
      c.names.map (·.1) = (decls.take k).map Decl.name ∧
      (∀ i < k, ∀ o, order[i]? = some o → ∃ obj x t, st.objs[o]? = some obj ∧
        env x.ref = some x ∧ x.ref = obj.ref ∧ Describes env st x obj ∧ CType env x t ∧
        dictGet c.names (nameOf obj) = some t) ∧
      (∀ n t, (n, t) ∈ c.names → ∃ x, env x.ref = some x ∧ ¬ Elsewhere x ∧ XElem.name x = n ∧
        CType env x t) ∧
      (∀ tag t, (tag, t) ∈ c.tags → ∃ d ∈ decls.take k, tag = "Rte_struct_" ++ Decl.name d) := by
    intro k
    induction k with
    | zero => intro _; exact ⟨⟨[], []⟩, rfl, rfl, by intro i hi; omega, by simp, by simp⟩
    | succ k ih =>
      intro hk
      obtain ⟨c, hc, hnames, hdone, hall, htags⟩ := ih (by omega)
      obtain ⟨d, hdk⟩ : ∃ d, decls[k]? = some d :=
        ⟨decls[k], List.getElem?_eq_getElem (by omega)⟩
      obtain ⟨⟨o, obj, hok', hobj, hname⟩, huses⟩ := hdef k d hdk
      obtain ⟨o', ho', hgd⟩ := hgen k d hdk
      rw [hok'] at ho'; cases ho'
      have hmem : o ∈ order := List.mem_of_getElem? hok'
      obtain ⟨-, obj', hobj', hne⟩ := hin o hmem
      rw [hobj] at hobj'; cases hobj'
      obtain ⟨x, hx, hxr, hdesc, -⟩ := inv.desc _ _ hobj
      have hdm : d ∈ decls := List.mem_of_getElem? hdk
      have hno : ∀ n t, (n, t) ∈ c.names → outside n = false := by
        intro n t hnt
        have : n ∈ c.names.map (·.1) := List.mem_map.2 ⟨_, hnt, rfl⟩
        rw [hnames] at this
        obtain ⟨e, he, rfl⟩ := List.mem_map.1 this
        exact hout e (List.mem_of_mem_take he)
      have hnew : ∀ e ∈ decls.take k, Decl.name e ≠ Decl.name d := by
        intro e he hEq
        obtain ⟨i, hi⟩ := List.mem_iff_getElem?.1 he
        have hik : i < k := by
          have := (List.getElem?_eq_some_iff.1 hi).1
          simp only [List.length_take] at this
          omega
        rw [List.getElem?_take_of_lt hik] at hi
        have h1 : (decls.map Decl.name)[i]? = some (Decl.name d) := by simp [hi, hEq]
        have h2 : (decls.map Decl.name)[k]? = some (Decl.name d) := by simp [hdk]
        have hil : i < (decls.map Decl.name).length := by simp; omega
        have := (List.getElem?_inj hil hdiff).1 (h1.trans h2.symm)
        omega
      have hfresh : dictGet c.names (nameOf obj) = none := by
        refine dictGet_none _ _ fun t ht => ?_
        have : nameOf obj ∈ c.names.map (·.1) := List.mem_map.2 ⟨_, ht, rfl⟩
        rw [hnames] at this
        obtain ⟨e, he, hEq⟩ := List.mem_map.1 this
        exact hnew e he (hEq.trans hname.symm)
      have htag : dictGet c.tags ("Rte_struct_" ++ nameOf obj) = none := by
        refine dictGet_none _ _ fun t ht => ?_
        obtain ⟨e, he, hEq⟩ := htags _ _ ht
        refine hnew e he ?_
        rw [hname]
        have := congrArg String.toList hEq
        simp only [String.toList_append, List.append_cancel_left_eq] at this
        exact (String.ext (by simpa using this)).symm
      have hknown : ∀ i ∈ Decl.uses d, Known env outside st c i := by
        intro i hi
        rcases huses i hi with ⟨obj', h1, h2⟩ | ⟨j, hj, hji⟩
        · obtain ⟨y, hy, hyr, hyd, -⟩ := inv.desc _ _ h1
          have hyels := elsewhere_of_external hyd h2
          refine ⟨obj', y, _, h1, hy, hyr, .elsewhere hyels, ?_⟩
          rw [← name_eq hyd]
          exact resolve_outside hno (hfit.elsewhere hy hyels)
        · obtain ⟨obj', y, t, h1, hy, hyr, -, hyt, hyg⟩ := hdone j hj i hji
          exact ⟨obj', y, t, h1, hy, hyr, hyt, by simp [resolve, hyg]⟩
      obtain ⟨t, c', hct, hcomp, hn', ht'⟩ := decl_ok hok hn inv hfit hown hno hobj hne hgd hx hxr hdesc
        hknown hfresh (by rw [← hname]; exact hout d hdm) htag
      refine ⟨c', ?_, ?_, ?_, ?_, ?_⟩
      · rw [take_succ_flat _ _ _ _ hdk, compile_append, hc]
        exact hcomp
      · rw [hn', List.map_append, hnames, List.take_add_one, hdk]
        simp [hname]
      · intro i hi o2 ho2
        by_cases hik : i < k
        · obtain ⟨obj', y, u, h1, h2, h3, h3', h4, h5⟩ := hdone i hik o2 ho2
          exact ⟨obj', y, u, h1, h2, h3, h3', h4, by rw [hn']; exact dictGet_append_old _ _ _ _ _ h5⟩
        · have : i = k := by omega
          subst this
          rw [hok'] at ho2; cases ho2
          exact ⟨obj, x, t, hobj, hx, hxr, hdesc, hct, by rw [hn']; exact dictGet_append_new _ _ _ hfresh⟩
      · intro n u hu
        rw [hn', List.mem_append] at hu
        rcases hu with hu | hu
        · exact hall n u hu
        · simp only [List.mem_singleton, Prod.mk.injEq] at hu
          obtain ⟨rfl, rfl⟩ := hu
          exact ⟨x, hx, not_elsewhere hown hx hdesc hne, name_eq hdesc, hct⟩
      · intro tag u hu
        have htk : decls.take (k + 1) = decls.take k ++ [d] := by rw [List.take_add_one, hdk]; rfl
        rcases ht' with ht' | ⟨v, ht'⟩
        · rw [ht'] at hu
          obtain ⟨e, he, hEq⟩ := htags _ _ hu
          exact ⟨e, by rw [htk]; simp [he], hEq⟩
        · rw [ht', List.mem_append] at hu
          rcases hu with hu | hu
          · obtain ⟨e, he, hEq⟩ := htags _ _ hu
            exact ⟨e, by rw [htk]; simp [he], hEq⟩
          · simp only [List.mem_singleton, Prod.mk.injEq] at hu
            exact ⟨d, by rw [htk]; simp, by rw [hu.1, hname]⟩
  obtain ⟨c, hc, hnames, hdone, hall, -⟩ := main decls.length (by omega)
  rw [List.take_length] at hc hnames
  refine ⟨_, c, by simp [typeDefLines, hd], hc, ?_, hall, hnames⟩
  intro r hr
  obtain ⟨o, obj, hto, hobj, hcase⟩ := hsrc r hr
  obtain ⟨obj', hobj', hrr⟩ := inv.get _ _ hto
  rw [hobj] at hobj'; cases hobj'
  obtain ⟨x, hx, hxr, hdesc, -⟩ := inv.desc _ _ hobj
  refine ⟨x, by rw [← hrr, ← hxr]; exact hx, hxr.trans hrr, ?_⟩
  rcases hcase with he | hm
  · exact .inl (elsewhere_of_external hdesc he)
  · obtain ⟨i, hi⟩ := List.mem_iff_getElem?.1 hm
    have hil : i < decls.length := by
      have := (List.getElem?_eq_some_iff.1 hi).1; omega
    obtain ⟨obj', y, t, h1, h2, h3, h4, h5, h6⟩ := hdone i hil o hi
    rw [hobj] at h1; cases h1
    have : y = x := by rw [h3, ← hxr, hx] at h2; exact (Option.some.inj h2).symm
    subst this
    exact .inr ⟨t, h5, by rw [name_eq h4]; exact h6⟩

/-! ### The whole header -/

/-- What a compiler sees of the type definitions, which have no preprocessor lines. -/
theorem preprocess_defs {st : State} {ls : List CLine} (h : typeDefLines st = .ok ls)
    (defs : List String) (stack : List Bool) (rest : List CLine) :
    preprocess defs stack (ls ++ rest) =
      (preprocess defs stack rest).map ((if stack.all id then ls else []) ++ ·) := by
  have hdecl : ∀ d : Decl, ∀ rest, preprocess defs stack (declLines st.objs d ++ rest) =
      (preprocess defs stack rest).map ((if stack.all id then declLines st.objs d else []) ++ ·) := by
    intro d rest
    cases d <;> cases hs : stack.all id <;> cases hp : preprocess defs stack rest <;>
      simp [declLines, preprocess, hs, hp]
  unfold typeDefLines at h
  split at h
  · simp at h
  · rename_i ds hds
    simp only [Except.ok.injEq] at h
    subst h
    clear hds
    induction ds with
    | nil => simp
    | cons d ds ih =>
      rw [List.flatMap_cons, List.append_assoc, hdecl, ih, Option.map_map]
      congr 1
      funext l
      simp only [Function.comp]
      split <;> simp

/-- C56: `#ifndef` and `#endif` match; a header included again adds nothing; and for a C++ compiler
it consists of the `#include` of Rte.h and the type definitions. -/
theorem C56_include {st : State} {ls header : List CLine} (h : typeDefLines st = .ok ls)
    (hh : headerLines st = .ok header) :
    (∀ defs, (preprocess defs [] header).isSome ∧
      preprocess defs [] (header ++ header) = preprocess defs [] header) ∧
    (∀ defs, "RTE_TYPE_H_" ∉ defs → "__cplusplus" ∈ defs →
      preprocess defs [] header = some (.include "Rte.h" :: ls) ∧
      ∀ outside c, compile outside c (.include "Rte.h" :: ls) = compile outside c ls) := by
  simp only [headerLines, h, Except.ok.injEq] at hh
  subst hh
  constructor
  · intro defs
    by_cases hd : "RTE_TYPE_H_" ∈ defs <;> by_cases hc : "__cplusplus" ∈ defs <;>
      simp [preprocess, hd, hc, preprocess_defs h]
  · intro defs hd hc
    refine ⟨?_, fun _ _ => rfl⟩
    simp [preprocess, hd, hc, preprocess_defs h]

/-- Finding: for a C compiler, the only kind for which `extern "C"` is an error, it begins with
`extern "C" {`; so no generated header is C (type_generator.py 50-53, 63-65: `#ifndef __cplusplus`
instead of `#ifdef`), and a C++ compiler gets no linkage specification. -/
theorem C56_c_counterexample {st : State} {ls header : List CLine} (h : typeDefLines st = .ok ls)
    (hh : headerLines st = .ok header) (outside : String → Bool) (c : CEnv) :
    ∃ lines, preprocess [] [] header = some lines ∧
      lines = .line "extern \"C\"" :: .line "{" :: .include "Rte.h" :: (ls ++ [.line "}"]) ∧
      compile outside c lines = none := by
  refine ⟨_, ?_, rfl, rfl⟩
  simp only [headerLines, h, Except.ok.injEq] at hh
  subst hh
  simp [preprocess, preprocess_defs h]

/-! ### When there is a header -/

theorem elemText_ok {env : Env} {st : State} (inv : Inv env st) (hok : EnvOk env)
    {s : SubElem} {t : ElemType} (hd : ElemDescribes env st s t)
    (hv : s.category = some "VALUE" → ∀ p ps, s.props = some (p :: ps) → ∀ q y, p.baseRef = some q →
      env q = some y → ∃ r n native, y = .base r n native) (hn : env "None" = none) :
    ∃ x, elemText st.objs t = .ok x := by
  cases hd with
  | typeRef p ps o hc hp hm => exact ⟨_, rfl⟩
  | value p ps o hc hp hm =>
    obtain ⟨q, y, hq, hy, ht⟩ := hm
    obtain ⟨obj, hobj, hr⟩ := inv.get _ _ ht
    simp only [target, Option.some.injEq] at hq
    have hb : p.baseRef = some q := by
      cases hpb : p.baseRef with
      | none => rw [hpb] at hq; simp only [refStr] at hq; rw [← hq, hn] at hy; cases hy
      | some q' => rw [hpb] at hq; simp only [refStr] at hq; rw [hq]
    obtain ⟨r, n, native, rfl⟩ := hv hc p ps hp q y hb hy
    obtain ⟨x, hx, hxr, hdesc, -⟩ := inv.desc _ _ hobj
    have hy' := type_back (hok _ _ hy) (by rintro ⟨_, _, h⟩; cases h)
    rw [hxr, hr, hy'] at hx
    cases hx
    cases hdesc
    simp only [elemText, hobj]
    exact ⟨_, rfl⟩

/-- C56: there is a header whenever the sources were found, no type is a pointer, and elements of
category VALUE refer to base types.  (Pointers raise NotImplementedError.) -/
theorem C56_generated (limit : Nat) (env : Env) (hok : EnvOk env) (hn : env "None" = none)
    (history : List Req) (hh : ∀ p ∈ history, p.attached env)
    (hfound : ∀ r ∈ (run limit env .empty history).sources,
      ∃ o, dictGet (run limit env .empty history).types r = some o)
    (hptr : ∀ q r n s e p subs, env q ≠ some (.impl r n (some "DATA_REFERENCE") s e p subs))
    (hv : ∀ q r n c s e p subs, env q = some (.impl r n c s e p subs) → ∀ sub ∈ subs,
      sub.category = some "VALUE" → ∀ p ps, sub.props = some (p :: ps) → ∀ q y,
      p.baseRef = some q → env q = some y → ∃ r n native, y = .base r n native) :
    ∃ header, headerLines (run limit env .empty history) = .ok header := by
  obtain ⟨inv, _⟩ := run_spec hok limit history .empty (Inv.empty env) hh
  have hnp : ∀ r n s e t, RObj.pointer r n s e t ∉ (run limit env .empty history).objs := by
    intro r n s e t hm
    obtain ⟨i, hi⟩ := List.mem_iff_getElem?.1 hm
    obtain ⟨x, hx, hxr, hdesc, -⟩ := inv.desc _ _ hi
    cases hdesc <;> exact hptr _ _ _ _ _ _ _ hx
  obtain ⟨order, ho⟩ := C31_order_exists limit env hok history hh hfound hnp
  obtain ⟨-, hin, -⟩ := C31_each_once limit env hok history hh order ho
  generalize hst : run limit env .empty history = st at *
  have : ∃ ds, mapE (genDecl st.objs) order = .ok ds := by
    refine mapE_total fun o hm => ?_
    obtain ⟨-, obj, hobj, -⟩ := hin o hm
    obtain ⟨x, hx, hxr, hdesc, -⟩ := inv.desc _ _ hobj
    cases hdesc with
    | base r n native => exact ⟨_, by unfold genDecl; rw [hobj]⟩
    | value => exact ⟨_, by unfold genDecl; rw [hobj]⟩
    | typeRef => exact ⟨_, by unfold genDecl; rw [hobj]⟩
    | array r n sym sy em props s size t _ _ hel =>
      obtain ⟨u, hu⟩ := elemText_ok inv hok hel
        (hv _ _ _ _ _ _ _ _ hx s (by simp)) hn
      exact ⟨.arrayTypedef n u size, by simp [genDecl, hobj, hu, Except.map]⟩
    | record r n sym sy em props subs ts _ hels =>
      have : ∃ ms, mapE (fun e : String × ElemType =>
          (elemText st.objs e.2).map fun x => (e.1, x)) ts = .ok ms := by
        refine mapE_total fun e he => ?_
        have hsub : ∃ s ∈ subs, ElemDescribes env st s e.2 := by
          clear hx hobj hxr
          induction hels with
          | nil => simp at he
          | cons s ss t ts h _ ih =>
            rcases List.mem_cons.1 he with rfl | he
            · exact ⟨s, by simp, h⟩
            · obtain ⟨s', hs', h'⟩ := ih he
              exact ⟨s', by simp [hs'], h'⟩
        obtain ⟨s, hs, hes⟩ := hsub
        obtain ⟨u, hu⟩ := elemText_ok inv hok hes (hv _ _ _ _ _ _ _ _ hx s hs) hn
        exact ⟨_, by rw [hu]; rfl⟩
      obtain ⟨ms, hms⟩ := this
      exact ⟨.structTypedef n ms, by unfold genDecl; rw [hobj]; simp only; rw [hms]; rfl⟩
    | pointerValue => exact absurd (List.mem_of_getElem? hobj) (hnp _ _ _ _ _)
    | pointerRef => exact absurd (List.mem_of_getElem? hobj) (hnp _ _ _ _ _)
  obtain ⟨ds, hds⟩ := this
  exact ⟨_, by simp only [headerLines, typeDefLines, genTypeDefs, ho, hds]; rfl⟩

/-! ### Examples and findings -/

/-- A structure with members of three kinds, an array, and what they refer to. -/
def shop : Env := .of fun r =>
  if r = "/u16" then some (.base "/u16" "uint16" (some "unsigned short"))
  else if r = "/plat" then some (.base "/plat" "Plat" none)
  else if r = "/speed" then
    some (.impl "/speed" "Speed" (some "VALUE") none none (some [{ baseRef := some "/u16" }]) [])
  else if r = "/four" then
    some (.impl "/four" "Four" (some "ARRAY") none none none
      [{ name := "e", category := some "TYPE_REFERENCE", arraySize := some 4,
         props := some [{ implRef := some "/speed" }] }])
  else if r = "/pair" then
    some (.impl "/pair" "Pair" (some "STRUCTURE") none (some "rte") none
      [{ name := "a", category := some "TYPE_REFERENCE", props := some [{ implRef := some "/four" }] },
       { name := "b", category := some "VALUE", props := some [{ baseRef := some "/u16" }] },
       { name := "c", category := some "VALUE", props := some [{ baseRef := some "/plat" }] }])
  else none

def shopSt : State := run 9 shop .empty [.byRef "/pair" true]

/-- What is known outside. -/
def shopOut (s : String) : Bool := s == "unsigned short" || s == "Plat"

theorem shop_defs : genTypeDefs shopSt = .ok
    [.typedef "uint16" (.native "unsigned short"), .typedef "Speed" (.named 0),
     .arrayTypedef "Four" (.named 1) 4,
     .structTypedef "Pair" [("a", .named 2), ("b", .native "unsigned short"), ("c", .named 3)]] := by
  have : genTrees shopSt = .ok [.node 4 [.node 2 [.node 1 [.node 0 []]]]] := by rfl
  have : genOrder shopSt = .ok [0, 1, 2, 4] := by
    simp only [genOrder, this, creationOrder, List.map, bfs, Tree.children, List.reverse_cons,
      List.reverse_nil, List.nil_append, List.append_nil, List.singleton_append, List.cons_append,
      Tree.data]
    decide +kernel
  simp only [genTypeDefs, this]
  decide +kernel

theorem elsewhere_base {r n s : String} (h : Elsewhere (.base r n (some s))) : s = "" := by
  cases h; rfl

/-- the hypotheses of `C56_types_partial` hold for the shop -/
example : EnvOk shop ∧ shop "None" = none ∧ CFit shop shopOut ∧ OwnRefs shop := by
  refine ⟨?_, by decide +kernel, ⟨?_, ?_, ?_, ?_⟩, ?_⟩
  · intro r x h
    simp only [shop, Env.of, Env.get] at h
    repeat' split at h
    all_goals first
      | (simp only [Option.some.injEq] at h; subst h; exact .inl rfl)
      | simp at h
  · intro q r n sym em props s h
    simp only [shop, Env.of, Env.get] at h
    repeat' split at h
    all_goals simp at h
    obtain ⟨-, -, -, -, -, rfl⟩ := h
    simp
  · intro q r n sym em props subs h
    simp only [shop, Env.of, Env.get] at h
    repeat' split at h
    all_goals simp at h
    obtain ⟨-, -, -, -, -, rfl⟩ := h
    simp
  · intro q r n s h hs
    simp only [shop, Env.of, Env.get] at h
    repeat' split at h
    all_goals simp at h
    obtain ⟨-, -, rfl⟩ := h
    rfl
  · intro q x h hx
    simp only [shop, Env.of, Env.get] at h
    repeat' split at h
    all_goals first
      | (simp only [Option.some.injEq] at h; subst h; exact absurd (elsewhere_base hx) (by decide))
      | (simp only [Option.some.injEq] at h; subst h
         cases hx <;> first | rfl | (rename_i h; exact absurd (by unfold SpellsRte; decide +kernel) h))
      | simp at h
  · intro q r n sym e props subs h
    simp only [shop, Env.of, Env.get] at h
    repeat' split at h
    all_goals simp at h

/-- and those of `C56_generated` -/
example : (∀ r ∈ shopSt.sources, ∃ o, dictGet shopSt.types r = some o) ∧
    (∀ q r n s e p subs, shop q ≠ some (.impl r n (some "DATA_REFERENCE") s e p subs)) ∧
    (∀ q r n c s e p subs, shop q = some (.impl r n c s e p subs) → ∀ sub ∈ subs,
      sub.category = some "VALUE" → ∀ p ps, sub.props = some (p :: ps) → ∀ q y,
      p.baseRef = some q → shop q = some y → ∃ r n native, y = .base r n native) := by
  refine ⟨?_, ?_, ?_⟩
  · have : shopSt.sources = ["/pair"] := by decide +kernel
    rw [this]
    intro r hr
    simp only [List.mem_singleton] at hr
    subst hr
    exact ⟨4, by decide +kernel⟩
  · intro q r n s e p subs h
    simp only [shop, Env.of, Env.get] at h
    repeat' split at h
    all_goals simp at h
  · intro q r n c s e p subs h sub hs hc p' ps hp q' y hb hy
    have hshop : shop "/u16" = some (.base "/u16" "uint16" (some "unsigned short")) := by
      decide +kernel
    have hplat : shop "/plat" = some (.base "/plat" "Plat" none) := by decide +kernel
    simp only [shop, Env.of, Env.get] at h
    repeat' split at h
    all_goals simp at h
    all_goals obtain ⟨-, -, -, -, -, -, rfl⟩ := h
    all_goals simp at hs
    · subst hs; simp at hc
    · rcases hs with rfl | rfl | rfl
      · simp at hc
      · simp at hp; obtain ⟨rfl, -⟩ := hp; simp at hb; subst hb
        rw [hshop] at hy; cases hy; exact ⟨_, _, _, rfl⟩
      · simp at hp; obtain ⟨rfl, -⟩ := hp; simp at hb; subst hb
        rw [hplat] at hy; cases hy; exact ⟨_, _, _, rfl⟩

/-- and this is its header -/
example : typeDefLines shopSt = .ok
    [.typedef "uint16" "unsigned short", .typedef "Speed" "uint16", .typedefArray "Four" "Speed" 4,
     .struct "Rte_struct_Pair" [("a", "Four"), ("b", "unsigned short"), ("c", "Plat")],
     .typedefStruct "Pair" "Rte_struct_Pair"] := by
  simp only [typeDefLines, shop_defs]
  decide +kernel

example : ∃ ls c, typeDefLines shopSt = .ok ls ∧ compile shopOut ⟨[], []⟩ ls = some c ∧
    dictGet c.names "Pair" = some (.struct "Rte_struct_Pair"
      [("a", .array 4 (.outside "unsigned short")), ("b", .outside "unsigned short"),
       ("c", .outside "Plat")]) := by
  simp only [typeDefLines, shop_defs]
  exact ⟨_, _, rfl, rfl, rfl⟩

/-- Two packages with a type of the same name; a type reference that another emitter declares; a
type with a symbol. -/
def clash : Env := .of fun r =>
  if r = "/u8" then some (.base "/u8" "uint8" (some "unsigned char"))
  else if r = "/a/T" then
    some (.impl "/a/T" "T" (some "VALUE") none none (some [{ baseRef := some "/u8" }]) [])
  else if r = "/b/T" then
    some (.impl "/b/T" "T" (some "TYPE_REFERENCE") none none (some [{ implRef := some "/u8" }]) [])
  else if r = "/os" then
    some (.impl "/os" "OsTick" (some "TYPE_REFERENCE") none (some "OS") (some [{ implRef := some "/u8" }]) [])
  else if r = "/s" then
    some (.impl "/s" "Short" (some "VALUE") (some "Long_Symbol") none (some [{ baseRef := some "/u8" }]) [])
  else none

theorem clash_ok : EnvOk clash := by
  intro r x h
  simp only [clash, Env.of, Env.get] at h
  repeat' split at h
  all_goals first
    | (simp only [Option.some.injEq] at h; subst h; exact .inl rfl)
    | simp at h

/-- Finding: types of the same name in different packages are both declared under that name, which
no C compiler accepts. -/
theorem C56_names_counterexample :
    EnvOk clash ∧
    ∃ lines, typeDefLines (run 9 clash .empty [.byRef "/a/T" true, .byRef "/b/T" true]) = .ok lines ∧
      lines = [.typedef "uint8" "unsigned char", .typedef "T" "uint8", .typedef "T" "uint8"] ∧
      ∀ outside, compile outside ⟨[], []⟩ lines = none := by
  have h1 : genTrees (run 9 clash .empty [.byRef "/a/T" true, .byRef "/b/T" true]) =
    .ok [.node 1 [.node 0 []], .node 2 [.node 0 []]] := by rfl
  have h2 : genOrder (run 9 clash .empty [.byRef "/a/T" true, .byRef "/b/T" true])
      = .ok [0, 1, 2] := by
    simp only [genOrder, h1, creationOrder, List.map, bfs, Tree.children, List.reverse_cons,
      List.reverse_nil, List.nil_append, List.append_nil, List.singleton_append, List.cons_append,
      Tree.data]
    decide +kernel
  refine ⟨clash_ok, [.typedef "uint8" "unsigned char", .typedef "T" "uint8", .typedef "T" "uint8"],
    ?_, rfl, ?_⟩
  · simp only [typeDefLines, genTypeDefs, h2]
    decide +kernel
  · intro outside
    by_cases h1 : outside "unsigned char" = true <;> by_cases h2 : outside "uint8" = true <;>
      by_cases h3 : outside "T" = true <;>
      simp [compile, compileLine, resolve, declare, dictGet, h1, h2, h3]

/-- Finding: a type reference whose type emitter is not the RTE is declared nevertheless (its
emitter is not handed on, implementation.py 130-142), unlike a value with that emitter. -/
theorem C56_emitter_counterexample :
    EnvOk clash ∧ (∃ x, clash "/os" = some x ∧ Elsewhere x) ∧
    typeDefLines (run 9 clash .empty [.byRef "/os" true]) =
      .ok [.typedef "uint8" "unsigned char", .typedef "OsTick" "uint8"] := by
  have h1 : genTrees (run 9 clash .empty [.byRef "/os" true]) = .ok [.node 1 [.node 0 []]] := by rfl
  have h2 : genOrder (run 9 clash .empty [.byRef "/os" true]) = .ok [0, 1] := by
    simp only [genOrder, h1, creationOrder, List.map, bfs, Tree.children, List.reverse_cons,
      List.reverse_nil, List.nil_append, List.append_nil, List.singleton_append, List.cons_append,
      Tree.data]
    decide +kernel
  refine ⟨clash_ok, ⟨_, rfl, .impl _ _ _ _ _ _ _ (by unfold SpellsRte; decide +kernel)⟩, ?_⟩
  simp only [typeDefLines, genTypeDefs, h2]
  decide +kernel

/-- Finding: the symbol given for a type is not used. -/
theorem C56_symbol_counterexample :
    (∃ r n c e p s, clash "/s" = some (.impl r n c (some "Long_Symbol") e p s)) ∧
    typeDefLines (run 9 clash .empty [.byRef "/s" true]) =
      .ok [.typedef "uint8" "unsigned char", .typedef "Short" "uint8"] := by
  have h1 : genTrees (run 9 clash .empty [.byRef "/s" true]) = .ok [.node 1 [.node 0 []]] := by rfl
  have h2 : genOrder (run 9 clash .empty [.byRef "/s" true]) = .ok [0, 1] := by
    simp only [genOrder, h1, creationOrder, List.map, bfs, Tree.children, List.reverse_cons,
      List.reverse_nil, List.nil_append, List.append_nil, List.singleton_append, List.cons_append,
      Tree.data]
    decide +kernel
  refine ⟨⟨_, _, _, _, _, _, rfl⟩, ?_⟩
  simp only [typeDefLines, genTypeDefs, h2]
  decide +kernel

end Verif.Props.ImplHeader
