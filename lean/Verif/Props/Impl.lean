import Verif.Impl.Order
/-
C31, C32: the implementation model (model/implementation.py) and the order of type definitions
(generator/type_generator.py).
-/
set_option linter.unusedSimpArgs false
namespace Verif.Props.Impl
open Verif.Py Verif.Impl Verif.Impl.Spec

/-! ### Sample workspace -/

/-- A diamond: `pair` uses `speed` twice and `alias`, which renames `speed`. -/
def sample : Env := .of fun r =>
  if r = "/u16" then some (.base "/u16" "uint16" (some "unsigned short"))
  else if r = "/plat" then some (.base "/plat" "Plat" none)
  else if r = "/speed" then
    some (.impl "/speed" "Speed" (some "VALUE") none none (some [{ baseRef := some "/u16" }]) [])
  else if r = "/alias" then
    some (.impl "/alias" "Alias" (some "TYPE_REFERENCE") (some "alias_sym") none
      (some [{ implRef := some "/speed" }]) [])
  else if r = "/pair" then
    some (.impl "/pair" "Pair" (some "STRUCTURE") none (some "rte") none
      [{ name := "a", category := some "TYPE_REFERENCE", props := some [{ implRef := some "/alias" }] },
       { name := "b", category := some "TYPE_REFERENCE", props := some [{ implRef := some "/speed" }] },
       { name := "c", category := some "VALUE", props := some [{ baseRef := some "/plat" }] }])
  else if r = "/loop" then
    some (.impl "/loop" "Loop" (some "TYPE_REFERENCE") none none (some [{ implRef := some "/loop" }]) [])
  else none

theorem sample_ok : EnvOk sample := by
  intro r x h
  simp only [sample, Env.of, Env.get] at h
  repeat' split at h
  all_goals first
    | (simp only [Option.some.injEq] at h; subst h; exact .inl rfl)
    | simp at h

/-! ### C32 -/

/-- C32: after any history of requests, a request that yields an object leaves it unchanged for
ever: whatever is requested afterwards (successfully or not), a later request about the same
element – by any reference that leads to it or by the element itself – changes nothing and
returns the same object with the same contents. -/
theorem C32_same_object (limit : Nat) (env : Env) (hok : EnvOk env) (before between : List Req)
    (q q' : Req) (hb : ∀ p ∈ before, p.attached env) (hm : ∀ p ∈ between, p.attached env)
    (hq : q.attached env) (hq' : q'.attached env) (hsame : q.subject env = q'.subject env)
    (o : Oid) (hr : (step (limit + 1) env (run (limit + 1) env .empty before) q).2 = .ok o) :
    let st1 := (step (limit + 1) env (run (limit + 1) env .empty before) q).1
    let st2 := run (limit + 1) env st1 between
    step (limit + 1) env st2 q' = (st2, .ok o) ∧
      (∃ obj, st1.objs[o]? = some obj) ∧ st2.objs[o]? = st1.objs[o]? := by
  intro st1 st2
  obtain ⟨i0, _⟩ := run_spec hok (limit + 1) before .empty (Inv.empty env) hb
  obtain ⟨i1, _, h1⟩ := step_spec hok (limit + 1) i0 q hq
  obtain ⟨x, hx, hxx, hxo⟩ := h1 o hr
  obtain ⟨i2, e2⟩ := run_spec hok (limit + 1) between st1 i1 hm
  obtain ⟨obj, ho, _⟩ := i1.get _ _ hxo
  refine ⟨?_, ⟨obj, ho⟩, by rw [e2.get ho]; exact ho.symm⟩
  have hx2 : dictGet st2.types x.ref = some o := e2.types _ _ hxo
  rw [hsame] at hx
  cases q' with
  | byRef r s =>
    simp only [Req.subject] at hx
    simp [step, createFromRef, find_of_get hx, createFromElement, hx2]
  | byElement y s =>
    simp only [Req.subject, Option.some.injEq] at hx
    subst hx
    simp [step, createFromElement, hx2]

example : (step 9 sample (run 9 sample .empty [.byRef "/loop" true, .byRef "/speed" true])
    (.byRef "/pair" true)).2 = .ok 4 := by decide +kernel
example : (step 9 sample (run 9 sample .empty [.byRef "/pair" true]) (.byRef "/speed" false)).2
    = .ok 1 := by decide +kernel
example : (step 9 sample .empty (.byRef "/loop" false)).2 = .error .recursionError := by
  decide +kernel

/-- C32: at most one object per reference exists at any time, the table of types lists exactly
the existing objects, and each object describes the element its reference names: same name,
symbol, emitter and sizes, and its parts are the objects of the elements referred to. -/
theorem C32_one_per_reference (limit : Nat) (env : Env) (hok : EnvOk env) (history : List Req)
    (hh : ∀ p ∈ history, p.attached env) :
    let st := run limit env .empty history
    (∀ (a b : Oid) x y, st.objs[a]? = some x → st.objs[b]? = some y → x.ref = y.ref → a = b) ∧
    (∀ r o, dictGet st.types r = some o ↔ ∃ obj, st.objs[o]? = some obj ∧ obj.ref = r) ∧
    (∀ (o : Oid) obj, st.objs[o]? = some obj →
      ∃ x, env obj.ref = some x ∧ Describes env st x obj) := by
  intro st
  obtain ⟨i, _⟩ := run_spec hok limit history .empty (Inv.empty env) hh
  refine ⟨i.inj, ?_, ?_⟩
  · intro r o
    constructor
    · exact i.get r o
    · rintro ⟨obj, h1, rfl⟩; exact i.all o obj h1
  · intro o obj ho
    obtain ⟨x, h1, h2, h3, _⟩ := i.desc o obj ho
    exact ⟨x, by rw [← h2]; exact h1, h3⟩

/-- C32: a successful request yields the object of the element asked for. -/
theorem C32_right_object (limit : Nat) (env : Env) (hok : EnvOk env) (history : List Req)
    (hh : ∀ p ∈ history, p.attached env) (q : Req) (hq : q.attached env) (o : Oid)
    (hr : (step limit env (run limit env .empty history) q).2 = .ok o) :
    let st := (step limit env (run limit env .empty history) q).1
    ∃ x obj, q.subject env = some x ∧ st.objs[o]? = some obj ∧ obj.ref = x.ref ∧
      Describes env st x obj := by
  intro st
  obtain ⟨i0, _⟩ := run_spec hok limit history .empty (Inv.empty env) hh
  obtain ⟨i1, _, h1⟩ := step_spec hok limit i0 q hq
  obtain ⟨x, hx, hxx, hxo⟩ := h1 o hr
  obtain ⟨obj, ho, href⟩ := i1.get _ _ hxo
  obtain ⟨y, g1, g2, g3, _⟩ := i1.desc _ _ ho
  rw [g2, href, hxx] at g1
  cases g1
  exact ⟨x, obj, hx, ho, href, g3⟩

/-- Why C32 asks elements to be attached: two detached elements share the key "None", so the
second request returns the first element's object. -/
theorem C32_detached_counterexample :
    let a : XElem := .base "None" "A" none
    let b : XElem := .base "None" "B" none
    (step 9 (.of fun _ => none) .empty (.byElement a true)).2 = .ok 0 ∧
    (step 9 (.of fun _ => none) (run 9 (.of fun _ => none) .empty [.byElement a true])
      (.byElement b true)).2 = .ok 0 ∧
    (run 9 (.of fun _ => none) .empty [.byElement a true, .byElement b true]).objs
      = [.base "None" "A" none] := by
  decide +kernel

/-! ### C31 -/

/-- C31: in the generated header every type that a declaration names is either declared elsewhere
(a base type without native declaration, or a type whose emitter is not the RTE) or declared by
an earlier declaration of the same header.  `order` lists the types the declarations are for. -/
theorem C31_defined_before_use (limit : Nat) (env : Env) (hok : EnvOk env) (history : List Req)
    (hh : ∀ p ∈ history, p.attached env) (decls : List Decl)
    (hd : genTypeDefs (run limit env .empty history) = .ok decls) :
    let st := run limit env .empty history
    ∃ order : List Oid, genOrder st = .ok order ∧ order.length = decls.length ∧
      (∀ (j : Nat) d, decls[j]? = some d →
        (∃ o obj, order[j]? = some o ∧ st.objs[o]? = some obj ∧ Decl.name d = nameOf obj) ∧
        ∀ c ∈ Decl.uses d,
          (∃ obj, st.objs[c]? = some obj ∧ External obj) ∨ ∃ i < j, order[i]? = some c) := by
  intro st
  obtain ⟨inv, _⟩ := run_spec hok limit history .empty (Inv.empty env) hh
  unfold genTypeDefs at hd
  cases ho : genOrder st with
  | error e => rw [show genOrder (run limit env .empty history) = .error e from ho] at hd; simp at hd
  | ok order =>
    rw [show genOrder (run limit env .empty history) = .ok order from ho] at hd
    simp only at hd
    obtain ⟨hl, hg⟩ := mapE_get hd
    refine ⟨order, rfl, hl, ?_⟩
    intro j d hj
    obtain ⟨o, hoj, hdecl⟩ := hg j d hj
    unfold genOrder at ho
    cases ht : genTrees st with
    | error e => simp [ht] at ho
    | ok ts =>
      simp only [ht, Except.ok.injEq] at ho
      obtain ⟨hp, _⟩ := genTrees_prior ht
      have hsplit : order = order.take j ++ o :: order.drop (j + 1) := by
        obtain ⟨hlt, hget⟩ := List.getElem?_eq_some_iff.mp hoj
        rw [← hget, List.getElem_cons_drop, List.take_append_drop]
      rw [← ho] at hsplit
      obtain ⟨L1, L2, obj, hL, hpre, hobj, _⟩ := dedup_split _ _ [] _ _ _ hsplit
      obtain ⟨obj', cs, h1, h2, h3⟩ := hp L1 o L2 hL
      rw [hobj] at h1; cases h1
      constructor
      · refine ⟨o, obj, hoj, hobj, ?_⟩
        unfold genDecl at hdecl
        rw [show (run limit env .empty history).objs[o]? = some obj from hobj] at hdecl
        cases obj <;> simp only at hdecl
        case base => cases hdecl; rfl
        case scalar => cases hdecl; rfl
        case refType => cases hdecl; rfl
        case array => obtain ⟨x, _, rfl⟩ := map_ok hdecl; rfl
        case record => obtain ⟨x, _, rfl⟩ := map_ok hdecl; rfl
        case pointer => cases hdecl
      · intro c hc
        rcases genDecl_uses hobj h2 hdecl c hc with h | ⟨obj', h, h'⟩
        · -- a tree child: in the prefix, unless external
          have hcL := h3 c h
          have hclt : c < st.objs.length := by
            have := inv.down o obj hobj c (treeChildren_sub h2 c h)
            have := (List.getElem?_eq_some_iff.mp hobj).1
            omega
          have hco : st.objs[c]? = some st.objs[c] := List.getElem?_eq_getElem hclt
          cases hinc : included st.objs[c] with
          | false => exact .inl ⟨_, hco, (included_iff _).mp hinc⟩
          | true =>
            right
            have hm := mem_dedup inv.inj L1 [] c _ hcL hco hinc (by simp)
            rw [← hpre, ho] at hm
            obtain ⟨i, hi, hget⟩ := List.mem_iff_getElem.mp hm
            have hij : i < j := by
              have := List.length_take (i := j) (l := order)
              omega
            refine ⟨i, hij, ?_⟩
            rw [List.getElem_take] at hget
            exact List.getElem?_eq_some_iff.mpr ⟨_, hget⟩
        · exact .inl ⟨obj', h, (included_iff _).mp h'⟩

/-- C31: every type appears once; no external type appears; every source that is not external
appears; and only types needed by a source appear. -/
theorem C31_each_once (limit : Nat) (env : Env) (hok : EnvOk env) (history : List Req)
    (hh : ∀ p ∈ history, p.attached env) (order : List Oid)
    (ho : genOrder (run limit env .empty history) = .ok order) :
    let st := run limit env .empty history
    order.Nodup ∧
    (∀ o ∈ order, Needed st o ∧ ∃ obj, st.objs[o]? = some obj ∧ ¬ External obj) ∧
    (∀ r ∈ st.sources, ∃ o obj, dictGet st.types r = some o ∧ st.objs[o]? = some obj ∧
      (External obj ∨ o ∈ order)) := by
  intro st
  obtain ⟨inv, _⟩ := run_spec hok limit history .empty (Inv.empty env) hh
  unfold genOrder at ho
  change (match genTrees st with
    | .error e => Except.error e
    | .ok ts => Except.ok (dedup st.objs [] (ts.map creationOrder).flatten)) = _ at ho
  cases ht : genTrees st with
  | error e => simp [ht] at ho
  | ok ts =>
    simp only [ht, Except.ok.injEq] at ho
    subst ho
    refine ⟨dedup_nodup _ _ _, ?_, ?_⟩
    · intro o h
      obtain ⟨obj, h1, _, h2, h3⟩ := dedup_refs _ _ _ o h
      refine ⟨genTrees_needed ht o h3, obj, h1, ?_⟩
      rw [← included_iff, h2]; simp
    · intro r hr
      obtain ⟨o, h1, h2⟩ := (genTrees_prior ht).2 r hr
      obtain ⟨obj, h3, _⟩ := inv.get _ _ h1
      refine ⟨o, obj, h1, h3, ?_⟩
      cases hinc : included obj with
      | false => exact .inl ((included_iff _).mp hinc)
      | true => exact .inr (mem_dedup inv.inj _ [] o obj h2 h3 hinc (by simp))

/-- C31: the order exists whenever every source request succeeded in creating its type and no
pointer types are involved. -/
theorem C31_order_exists (limit : Nat) (env : Env) (hok : EnvOk env) (history : List Req)
    (hh : ∀ p ∈ history, p.attached env) :
    let st := run limit env .empty history
    (∀ r ∈ st.sources, ∃ o, dictGet st.types r = some o) →
    (∀ r n s e t, .pointer r n s e t ∉ st.objs) →
    ∃ order, genOrder st = .ok order := by
  intro st hs hp
  obtain ⟨inv, _⟩ := run_spec hok limit history .empty (Inv.empty env) hh
  have : ∃ ts, genTrees st = .ok ts := by
    unfold genTrees
    refine mapE_total ?_
    intro r hr
    obtain ⟨o, h⟩ := hs r ((mem_sortS _ _).mp hr)
    simp only [h]
    obtain ⟨obj, h1, _⟩ := inv.get _ _ h
    have hlt := (List.getElem?_eq_some_iff.mp h1).1
    refine treeOf_total inv ?_ _ _ hlt hlt
    intro o' obj' h'
    have hm := List.mem_of_getElem? h'
    cases obj' with
    | pointer r n s e t => exact absurd hm (hp r n s e t)
    | array r n s e el => obtain ⟨a, b, t⟩ := el; cases t <;> exact ⟨_, rfl⟩
    | base => exact ⟨_, rfl⟩
    | scalar => exact ⟨_, rfl⟩
    | refType => exact ⟨_, rfl⟩
    | record => exact ⟨_, rfl⟩
  obtain ⟨ts, hts⟩ := this
  exact ⟨dedup st.objs [] (ts.map creationOrder).flatten, by simp [genOrder, hts]⟩

/-- the sample: base type, scalar, alias, struct, in this order -/
example : genOrder (run 9 sample .empty [.byRef "/alias" true, .byRef "/pair" true])
    = .ok [0, 1, 2, 4] := by
  have : genTrees (run 9 sample .empty [.byRef "/alias" true, .byRef "/pair" true]) =
    .ok [.node 2 [.node 1 [.node 0 []]],
         .node 4 [.node 2 [.node 1 [.node 0 []]], .node 1 [.node 0 []]]] := by rfl
  simp only [genOrder, this, creationOrder, List.map, bfs, Tree.children, List.reverse_cons,
    List.reverse_nil, List.nil_append, List.append_nil, List.singleton_append, List.cons_append,
    Tree.data]
  decide +kernel

example : genTrees (run 9 sample .empty [.byRef "/loop" true]) = .error .keyError := by rfl

/-- A struct whose only member is a plain value. -/
def sample2 : Env := .of fun r =>
  if r = "/u16" then some (.base "/u16" "uint16" (some "unsigned short"))
  else if r = "/box" then
    some (.impl "/box" "Box" (some "STRUCTURE") none none none
      [{ name := "v", category := some "VALUE", props := some [{ baseRef := some "/u16" }] }])
  else none

/-- Not everything requested as a source is emitted: a base type that was first created as the
type of a struct member is not recorded as a source when it is requested afterwards, so its
typedef is missing; in the other order of requests it is present. -/
theorem C31_late_source_counterexample :
    (run 9 sample2 .empty [.byRef "/box" true, .byRef "/u16" true]).sources = ["/box"] ∧
    genOrder (run 9 sample2 .empty [.byRef "/box" true, .byRef "/u16" true]) = .ok [1] ∧
    genOrder (run 9 sample2 .empty [.byRef "/u16" true, .byRef "/box" true]) = .ok [1, 0] := by
  refine ⟨by decide +kernel, ?_, ?_⟩
  · have : genTrees (run 9 sample2 .empty [.byRef "/box" true, .byRef "/u16" true]) =
      .ok [.node 1 []] := by rfl
    simp only [genOrder, this, creationOrder, List.map, bfs, Tree.children, List.reverse_cons,
      List.reverse_nil, List.nil_append, List.append_nil, Tree.data]
    decide +kernel
  · have : genTrees (run 9 sample2 .empty [.byRef "/u16" true, .byRef "/box" true]) =
      .ok [.node 1 [], .node 0 []] := by rfl
    simp only [genOrder, this, creationOrder, List.map, bfs, Tree.children, List.reverse_cons,
      List.reverse_nil, List.nil_append, List.append_nil, Tree.data]
    decide +kernel

end Verif.Props.Impl
