import Verif.Codec.CreateSpec
import Verif.Codec.AppendProof
/-
Proofs for C62.
-/
set_option linter.unusedSimpArgs false
namespace Verif.Codec.Create
open Verif.Py Verif.Names Verif.Codec Verif.Codec.Append Verif.Codec.AppendSpec Verif.Codec.CreateSpec

/-! ### Arguments -/

theorem lastOf_concat (a b : Data Cls) (k : String) :
    lastOf (a ++ b) k = (lastOf b k).or (lastOf a k) := by
  unfold lastOf
  rw [List.reverse_append]
  generalize b.reverse = b
  induction b with
  | nil => rfl
  | cons e b ih =>
    simp only [List.cons_append, dictGet, ih]
    split <;> rfl

theorem lastOf_filter_mem (a : Data Cls) (s : String → Bool) (k : String) (h : s k = true) :
    lastOf (a.filter fun kv => s kv.1) k = lastOf a k := by
  unfold lastOf
  rw [← List.filter_reverse]
  generalize a.reverse = a
  induction a with
  | nil => rfl
  | cons e a ih =>
    by_cases he : e.1 = k
    · have hs : s e.1 = true := he ▸ h
      rw [List.filter_cons, if_pos hs]
      simp only [dictGet, he, if_true]
    · rw [List.filter_cons]
      split
      · simp only [dictGet, if_neg he, ih]
      · simp only [dictGet, if_neg he, ih]

/-- The constructor looks only at which arguments there are and what they are worth. -/
theorem construct_congr (D : Digits) (c : Cls) {a b : Data Cls}
    (hk : (∀ p, lastOf a p ≠ none → ∃ f ∈ Schema.ctor c, f.param = p) ↔
      (∀ p, lastOf b p ≠ none → ∃ f ∈ Schema.ctor c, f.param = p))
    (hr : ∀ f ∈ Schema.ctor c, f.req = true → (lastOf a f.param).isNone = (lastOf b f.param).isNone)
    (hv : ∀ f ∈ Schema.ctor c, (lastOf a f.param).getD none = (lastOf b f.param).getD none) :
    Append.construct D c a = Append.construct D c b := by
  have hb : build tables c a = build tables c b := by
    show buildWith (Schema.ctor c) c a = buildWith (Schema.ctor c) c b
    have h1 : (a.all fun kv => (Schema.ctor c).any fun f => f.param = kv.1) =
        (b.all fun kv => (Schema.ctor c).any fun f => f.param = kv.1) := by
      rw [Bool.eq_iff_iff, known_iff, known_iff, hk]
    have h2 : (Schema.ctor c).any (fun f => f.req && (lastOf a f.param).isNone) =
        (Schema.ctor c).any (fun f => f.req && (lastOf b f.param).isNone) := by
      apply any_congr'
      intro f hf
      cases hq : f.req with
      | false => rfl
      | true => rw [hr f hf hq]
    have h3 : (Schema.ctor c).all (argOk a) = (Schema.ctor c).all (argOk b) := by
      rw [Bool.eq_iff_iff, List.all_eq_true, List.all_eq_true]
      constructor <;> intro h f hf <;> have := h f hf <;> simp only [argOk, hv f hf] at this ⊢ <;>
        exact this
    have h4 : (Schema.ctor c).any (badValue a) = (Schema.ctor c).any (badValue b) := by
      apply any_congr'
      intro f hf
      have := hv f hf
      unfold badValue
      generalize lastOf a f.param = u at this
      generalize lastOf b f.param = w at this
      rcases u with _ | _ | u <;> rcases w with _ | _ | w <;>
        simp only [Option.getD_none, Option.getD_some, reduceCtorEq, Option.some.injEq] at this <;>
        first
          | rfl
          | (subst this; rfl)
          | (rcases f.alts with _ | ⟨x, _ | ⟨y, _ | ⟨z, l⟩⟩⟩ <;> first | rfl | (cases x <;> rfl) | (cases x <;> cases y <;> rfl))
    have h5 : ((Schema.ctor c).filterMap fun f =>
          (normal ((lastOf a f.param).getD none)).map fun v => (f.attr, v)) =
        ((Schema.ctor c).filterMap fun f =>
          (normal ((lastOf b f.param).getD none)).map fun v => (f.attr, v)) := by
      exact canon_congr (g := fun f => normal ((lastOf a f.param).getD none))
        (g' := fun f => normal ((lastOf b f.param).getD none)) fun f hf => by rw [hv f hf]
    unfold buildWith
    rw [h1, h2, h3, h4, h5]
  unfold Append.construct
  rw [hb]

/-! ### The two tables -/

/-- The arguments of the constructor, by name. -/
def Row.targets (r : Row) : List (String × From) := (signature r.cls).zip r.positional

/-- A row does what is meant. -/
def rowOk (c : Cls) (r : Row) (q : Maker) : Bool :=
  r.method = q.method && r.params = q.params && r.cls = q.part &&
  decide (r.positional.length ≤ (signature r.cls).length) &&
  decide ((r.targets.map Prod.fst).Nodup) &&
  -- each argument goes to the one of the same name
  (r.targets.all fun t =>
    decide (t.2 = .arg t.1 ∧ t.1 ∈ q.params ∧ t.1 ∉ q.fixed.map Prod.fst) ||
    q.fixed.any fun e => decide (t = (e.1, .const e.2) ∧ e.1 ∉ q.params)) &&
  (q.params.all fun p => decide ((p, From.arg p) ∈ r.targets)) &&
  (q.fixed.all fun e => decide ((e.1, From.const e.2) ∈ r.targets)) &&
  -- the constructor knows them
  (r.targets.all fun t => (Schema.ctor r.cls).any fun f => f.param = t.1) &&
  ((Schema.ctor r.cls).all fun f => !f.req || decide (f.param = "name")) &&
  decide ("name" ∈ q.params) && decide q.params.Nodup && decide (q.fixed.map Prod.fst).Nodup &&
  decide (c ≠ .RunnableEntity) && decide (r.cls ≠ .RunnableEntity) &&
  -- and the part is put where it belongs
  (match r.put with
    | .append m =>
      q.many && ((partMethods c).find? fun e => e.1 = m) == some (m, [q.owner]) &&
      decide (m ∉ areaMethods) &&
      ((Schema.ctor c).any fun f => decide (f.param = q.owner) && f.alts.any fun a => decide (a = .cls q.part))
    | .set a =>
      !q.many && ((Schema.ctor c).any fun f => decide (f.param = q.owner ∧ f.attr = a ∧ f.shape = .one) && !f.req &&
        f.alts.any fun a => decide (a = .cls q.part)))

def tablesOk (c : Cls) : Bool :=
  (makers c).all fun q =>
    match (rows c).find? fun r => r.method = q.method with
    | some r => rowOk c r q
    | none => false

theorem tables_ok (c : Cls) : tablesOk c = true := by
  have h : ∀ n < 186, tablesOk (Cls.ofNat n) = true := by decide +kernel
  have := h c.ctorIdx (by cases c <;> decide)
  rwa [Cls.ofNat_ctorIdx] at this

/-- `rowOk` in words. -/
structure RowSpec (c : Cls) (r : Row) (q : Maker) : Prop where
  params : r.params = q.params
  cls : r.cls = q.part
  len : r.positional.length ≤ (signature r.cls).length
  nodup : (r.targets.map Prod.fst).Nodup
  same : ∀ t ∈ r.targets, (t.2 = .arg t.1 ∧ t.1 ∈ q.params ∧ t.1 ∉ q.fixed.map Prod.fst) ∨
    ∃ e ∈ q.fixed, t = (e.1, .const e.2) ∧ e.1 ∉ q.params
  all : ∀ p ∈ q.params, (p, From.arg p) ∈ r.targets
  fixed : ∀ e ∈ q.fixed, (e.1, From.const e.2) ∈ r.targets
  known : ∀ t ∈ r.targets, ∃ f ∈ Schema.ctor r.cls, f.param = t.1
  req : ∀ f ∈ Schema.ctor r.cls, f.req = true → f.param = "name"
  name : "name" ∈ q.params
  paramsNodup : q.params.Nodup
  fixedNodup : (q.fixed.map Prod.fst).Nodup
  owner : c ≠ .RunnableEntity
  part : r.cls ≠ .RunnableEntity
  put : (∃ m, r.put = .append m ∧ q.many = true ∧
      ((partMethods c).find? fun e => e.1 = m) = some (m, [q.owner]) ∧ m ∉ areaMethods ∧
      ∃ f ∈ Schema.ctor c, f.param = q.owner ∧ STy.cls q.part ∈ f.alts) ∨
    (∃ a, r.put = .set a ∧ q.many = false ∧ ∃ f ∈ Schema.ctor c,
      (f.param = q.owner ∧ f.attr = a ∧ f.shape = .one) ∧ f.req = false ∧ STy.cls q.part ∈ f.alts)

theorem row_spec {c : Cls} {q : Maker} (hq : q ∈ makers c) :
    ∃ r, ((rows c).find? fun r => r.method = q.method) = some r ∧ RowSpec c r q := by
  have h := List.all_eq_true.1 (tables_ok c) q hq
  cases hf : (rows c).find? fun r => r.method = q.method with
  | none => simp only [hf] at h; cases h
  | some r =>
    refine ⟨r, rfl, ?_⟩
    simp only [hf, rowOk, Bool.and_eq_true, decide_eq_true_eq, List.all_eq_true, List.any_eq_true,
      Bool.or_eq_true, Bool.not_eq_true'] at h
    obtain ⟨⟨⟨⟨⟨⟨⟨⟨⟨⟨⟨⟨⟨⟨⟨-, h1⟩, h2⟩, h3⟩, h4⟩, h5⟩, h6⟩, h7⟩, h8⟩, h9⟩, h10⟩, ha⟩, hb⟩, h11⟩, h12⟩, h13⟩ := h
    refine ⟨h1, h2, h3, h4, h5, h6, h7, h8, ?_, h10, ha, hb, h11, h12, ?_⟩
    · intro f hf hr
      rcases h9 f hf with h | h
      · rw [hr] at h; cases h
      · exact h
    · cases hp : r.put with
      | append m =>
        left
        simp only [hp, Bool.and_eq_true, decide_eq_true_eq, List.any_eq_true, beq_iff_eq] at h13
        obtain ⟨⟨⟨ha, hb⟩, hc⟩, f, hf, hd, x, hx, rfl⟩ := h13
        exact ⟨m, rfl, ha, hb, hc, f, hf, hd, hx⟩
      | set a =>
        right
        simp only [hp, Bool.and_eq_true, decide_eq_true_eq, List.any_eq_true, Bool.not_eq_true'] at h13
        obtain ⟨ha, f, hf, ⟨hb, hc⟩, x, hx, rfl⟩ := h13
        exact ⟨a, rfl, ha, f, hf, hb, hc, hx⟩

/-! ### Calls -/

theorem zip_take {α β : Type} : ∀ (a : List α) (b : List β), (a.zip b).map Prod.fst = a.take b.length
  | [], b => by simp
  | a :: as, [] => by simp
  | a :: as, b :: bs => by simp [zip_take as bs]

theorem targets_fst (r : Row) :
    r.targets.map Prod.fst = (signature r.cls).take r.positional.length := zip_take _ _

theorem zip_map_snd {α β γ : Type} (g : β → γ) : ∀ (a : List α) (b : List β),
    a.zip (b.map g) = (a.zip b).map fun t => (t.1, g t.2)
  | [], b => by simp
  | a :: as, [] => by simp
  | a :: as, b :: bs => by simp [zip_map_snd g as bs]

theorem lastOf_iff (a : Data Cls) (k : String) : lastOf a k ≠ none ↔ k ∈ a.map Prod.fst := by
  constructor
  · intro h
    cases hl : lastOf a k with
    | none => exact absurd hl h
    | some x => exact List.mem_map_of_mem (lastOf_mem hl)
  · intro h hn
    obtain ⟨e, he, rfl⟩ := List.mem_map.1 h
    exact lastOf_none hn e he rfl

theorem lastOf_unique {a : Data Cls} {k : String} {v : Option (Val Cls)} (hm : (k, v) ∈ a)
    (hn : (a.map Prod.fst).Nodup) : lastOf a k = some v := by
  cases hl : lastOf a k with
  | none => exact absurd rfl (lastOf_none hl _ hm)
  | some x =>
    have := lastOf_mem hl
    have := key_inj (g := Prod.fst) hn this hm rfl
    cases this
    rfl

/-- The constructor of the part is called with the arguments of the same names. -/
theorem args_same (D : Digits) {c : Cls} {r : Row} {q : Maker} (h : RowSpec c r q)
    {pos : List (Option (Val Cls))} {kw : Data Cls} (hc : q.Call pos kw) :
    ∃ bound rest, bindArgs r.params pos kw = .ok (bound, rest) ∧
      callInit D r.cls (r.positional.map (From.value bound)) rest =
        Append.construct D q.part (q.named pos kw) := by
  have hd := hc.distinct
  have hn := hc.named
  simp only [Maker.named, List.map_append, List.map_map] at hd hn
  rw [zip_take] at hd hn
  have hfx : (q.fixed.map ((Prod.fst : String × Option (Val Cls) → String) ∘
      fun e => (e.1, some (.enum e.2)))) = q.fixed.map Prod.fst := rfl
  rw [hfx] at hd hn
  obtain ⟨hd1, hfn, hdf⟩ := List.nodup_append.1 hd
  obtain ⟨-, hkn, hpk⟩ := List.nodup_append.1 hd1
  have hnf : "name" ∉ q.fixed.map Prod.fst := by
    intro hm
    obtain ⟨e, he, hen⟩ := List.mem_map.1 hm
    have ht := h.fixed e he
    rcases h.same _ ht with ⟨h1, -⟩ | ⟨e', he', h1, h2⟩
    · cases h1
    · have : e.1 = e'.1 := (Prod.mk.inj h1).1
      exact h2 (this ▸ hen ▸ h.name)
  refine ⟨r.params.zip pos ++ kw.filter fun kv => decide (kv.1 ∈ r.params),
    kw.filter fun kv => decide (kv.1 ∉ r.params), ?_, ?_⟩
  · unfold bindArgs
    rw [if_neg (by rw [h.params]; exact Nat.not_lt.2 hc.fewEnough), if_neg, if_neg]
    · intro hnone
      rw [Option.isNone_iff_eq_none] at hnone
      refine (lastOf_iff _ "name").2 ?_ hnone
      rw [List.map_append, zip_take, h.params]
      rcases List.mem_append.1 hn with hn | hn
      · rcases List.mem_append.1 hn with hn | hn
        · exact List.mem_append_left _ hn
        · apply List.mem_append_right
          obtain ⟨e, he, hee⟩ := List.mem_map.1 hn
          exact List.mem_map.2 ⟨e, List.mem_filter.2 ⟨he, by rw [hee]; simpa using h.name⟩, hee⟩
      · exact absurd hn hnf
    · intro hany
      simp only [List.any_eq_true, decide_eq_true_eq] at hany
      obtain ⟨e, he, hm⟩ := hany
      rw [h.params] at hm
      exact hpk _ hm _ (List.mem_map_of_mem he) rfl
  · have hno : ¬ ((kw.filter fun kv => decide (kv.1 ∉ r.params)).any fun kv =>
        kv.1 ∈ (signature r.cls).take (r.positional.map (From.value
          (r.params.zip pos ++ kw.filter fun kv => decide (kv.1 ∈ r.params)))).length) = true := by
      intro hany
      simp only [List.any_eq_true, decide_eq_true_eq, List.length_map, List.mem_filter] at hany
      obtain ⟨e, ⟨he, hne⟩, hm⟩ := hany
      rw [← targets_fst r] at hm
      obtain ⟨t, ht, hte⟩ := List.mem_map.1 hm
      rcases h.same t ht with ⟨-, h1, -⟩ | ⟨e', he', h1, h2⟩
      · rw [h.params] at hne; exact hne (hte ▸ h1)
      · subst h1
        exact hdf _ (List.mem_append_right _ (List.mem_map_of_mem he)) _
          (List.mem_map_of_mem he') hte.symm
    unfold callInit
    rw [if_neg hno, ← h.cls, zip_map_snd]
    show Append.construct D r.cls (r.targets.map (fun t => (t.1, From.value _ t.2)) ++ _) = _
    generalize hb : (r.params.zip pos ++ kw.filter fun kv => decide (kv.1 ∈ r.params)) = bound
    have hkeys : (r.targets.map (fun t => (t.1, From.value bound t.2))).map Prod.fst =
        r.targets.map Prod.fst := by rw [List.map_map]; rfl
    have hrest : ∀ k, k ∉ r.params → lastOf (kw.filter fun kv => decide (kv.1 ∉ r.params)) k = lastOf kw k :=
      fun k hk => lastOf_filter_mem kw (fun s => decide (s ∉ r.params)) k (by simpa using hk)
    have hrest0 : ∀ k, k ∈ r.params → lastOf (kw.filter fun kv => decide (kv.1 ∉ r.params)) k = none := by
      intro k hk
      apply lastOf_not_mem
      intro e he hek
      simp only [List.mem_filter, decide_eq_true_eq] at he
      exact he.2 (hek ▸ hk)
    have hbound : ∀ k, k ∈ r.params → lastOf bound k = lastOf (r.params.zip pos ++ kw) k := by
      intro k hk
      rw [← hb, lastOf_concat, lastOf_concat,
        lastOf_filter_mem kw (fun s => decide (s ∈ r.params)) k (by simpa using hk)]
    have hfix0 : ∀ k, k ∉ q.fixed.map Prod.fst →
        lastOf (q.fixed.map fun e => (e.1, some (.enum e.2 : Val Cls))) k = none := by
      intro k hk
      apply lastOf_not_mem
      intro e he hek
      obtain ⟨e', he', rfl⟩ := List.mem_map.1 he
      exact hk (hek ▸ List.mem_map_of_mem he')
    -- what each argument is worth
    have hval : ∀ k, (lastOf (r.targets.map (fun t => (t.1, From.value bound t.2)) ++
          kw.filter fun kv => decide (kv.1 ∉ r.params)) k).getD none =
          (lastOf (q.named pos kw) k).getD none ∧
        ((∀ t ∈ r.targets, t.1 ≠ k) →
          lastOf (r.targets.map (fun t => (t.1, From.value bound t.2)) ++
            kw.filter fun kv => decide (kv.1 ∉ r.params)) k = lastOf (q.named pos kw) k) := by
      intro k
      unfold Maker.named
      rw [lastOf_concat, lastOf_concat]
      by_cases hk : k ∈ r.targets.map Prod.fst
      · obtain ⟨t, ht, rfl⟩ := List.mem_map.1 hk
        refine ⟨?_, fun hn => absurd rfl (hn t ht)⟩
        have hl : lastOf (r.targets.map fun t => (t.1, From.value bound t.2)) t.1 =
            some (From.value bound t.2) :=
          lastOf_unique (List.mem_map.2 ⟨t, ht, rfl⟩) (by rw [hkeys]; exact h.nodup)
        rcases h.same t ht with ⟨h1, h2, h3⟩ | ⟨e, he, h1, h2⟩
        · have h2' : t.1 ∈ r.params := h.params ▸ h2
          rw [hrest0 _ h2', hl, hfix0 _ h3, Option.none_or, Option.none_or, h1]
          simp only [From.value, Option.getD_some]
          rw [hbound _ h2', h.params]
        · subst h1
          have h2' : e.1 ∉ r.params := fun hm => h2 (h.params ▸ hm)
          have hkw : lastOf kw e.1 = none := by
            apply lastOf_not_mem
            intro e' he' hee
            exact hdf _ (List.mem_append_right _ (List.mem_map_of_mem he')) _
              (List.mem_map_of_mem he) hee
          have hf : lastOf (q.fixed.map fun e => (e.1, some (.enum e.2 : Val Cls))) e.1 =
              some (some (.enum e.2)) :=
            lastOf_unique (List.mem_map.2 ⟨e, he, rfl⟩) (by rw [List.map_map]; exact hfn)
          simp only at hl ⊢
          rw [hrest _ h2', hkw, hl, hf]
          rfl
      · have hp : k ∉ r.params := fun hm => hk (List.mem_map_of_mem (f := Prod.fst)
          (h.all k (h.params ▸ hm)))
        have hfx : k ∉ q.fixed.map Prod.fst := by
          intro hm
          obtain ⟨e, he, rfl⟩ := List.mem_map.1 hm
          exact hk (List.mem_map_of_mem (f := Prod.fst) (h.fixed e he))
        have ht : lastOf (r.targets.map fun t => (t.1, From.value bound t.2)) k = none := by
          cases hl : lastOf (r.targets.map fun t => (t.1, From.value bound t.2)) k with
          | none => rfl
          | some x =>
            exact absurd (hkeys ▸ List.mem_map_of_mem (f := Prod.fst) (lastOf_mem hl)) hk
        have hz : lastOf (q.params.zip pos) k = none := by
          cases hl : lastOf (q.params.zip pos) k with
          | none => rfl
          | some x =>
            have := List.mem_map_of_mem (f := Prod.fst) (lastOf_mem hl)
            rw [zip_take] at this
            exact absurd (h.params ▸ List.mem_of_mem_take this) hp
        rw [hrest _ hp, ht, hfix0 _ hfx, Option.none_or, lastOf_concat, hz]
        exact ⟨rfl, fun _ => rfl⟩
    apply construct_congr
    · constructor
      · intro hall p hp
        by_cases ht : ∀ t ∈ r.targets, t.1 ≠ p
        · rw [← (hval p).2 ht] at hp
          exact hall p hp
        · obtain ⟨t, ht⟩ := Classical.not_forall.1 ht
          obtain ⟨ht, hte⟩ := Classical.not_imp.1 ht
          obtain ⟨f, hf, hfp⟩ := h.known t ht
          exact ⟨f, hf, hfp.trans (Classical.not_not.1 hte)⟩
      · intro hall p hp
        by_cases ht : ∀ t ∈ r.targets, t.1 ≠ p
        · rw [(hval p).2 ht] at hp
          exact hall p hp
        · obtain ⟨t, ht⟩ := Classical.not_forall.1 ht
          obtain ⟨ht, hte⟩ := Classical.not_imp.1 ht
          obtain ⟨f, hf, hfp⟩ := h.known t ht
          exact ⟨f, hf, hfp.trans (Classical.not_not.1 hte)⟩
    · intro f hf hr
      have hname := h.req f hf hr
      rw [hname]
      have h1 : lastOf (r.targets.map (fun t => (t.1, From.value bound t.2)) ++
          kw.filter fun kv => decide (kv.1 ∉ r.params)) "name" ≠ none := by
        rw [lastOf_iff, List.map_append]
        apply List.mem_append_left
        rw [hkeys]
        exact List.mem_map_of_mem (f := Prod.fst) (h.all _ h.name)
      have h2 : lastOf (q.named pos kw) "name" ≠ none := (lastOf_iff _ _).2 hc.named
      rw [Bool.eq_iff_iff, Option.isNone_iff_eq_none, Option.isNone_iff_eq_none]
      exact ⟨fun e => absurd e h1, fun e => absurd e h2⟩
    · intro f _
      exact (hval f.param).1

/-- What the constructor makes is an object of the class. -/
theorem construct_obj {D : Digits} {c : Cls} {data : Data Cls} {x : Val Cls}
    (h : Append.construct D c data = some (.ok x)) : ∃ fs, x = .obj c fs := by
  have hv : Valid c data := valid_of_ok (r := some x) h
  rw [construct_valid D hv] at h
  obtain ⟨fs, -, h⟩ := Option.map_eq_some_iff.1 h
  exact ⟨fs, (Except.ok.inj h).symm⟩

theorem construct_some {D : Digits} {c : Cls} (hc : c ≠ .RunnableEntity) (data : Data Cls) :
    Append.construct D c data ≠ none := by
  by_cases hv : Valid c data
  · rw [construct_valid D hv]
    simp [renTop, hc]
  · obtain ⟨e, he⟩ := build_invalid hv
    simp [Append.construct, he]

/-- One call of an `append*` method. -/
theorem add_one (D : Digits) {c : Cls} (hc : c ≠ .RunnableEntity) {data : Data Cls} {o x y : Val Cls}
    {m p : String} (ho : Append.construct D c data = some (.ok o)) (hp : part c m x = some (p, y)) :
    ∃ o', Append.construct D c (data ++ [(p, some (.list (given data p ++ [y])))]) = some (.ok o') ∧
      add D o m x = some (.ok o') := by
  obtain ⟨f, g1, g2, g3, g4, -, g6, g7⟩ := add_part hp
  have hl : ∀ k, lastOf (data ++ [(p, some (.list (given data p ++ [y])))]) k = if p = k then
      some (some (.list (given data p ++ [y]))) else lastOf data k :=
    fun k => Verif.Codec.Map.lastOf_append
  generalize data ++ [(p, some (.list (given data p ++ [y])))] = data2 at hl
  obtain ⟨gs, rfl, -, hs⟩ := step D (data2 := data2) g1 g3 g4 g6 ho
    (by rw [hl, g2, if_pos rfl]) (fun k hk => by rw [hl, if_neg (fun e => hk (e.symm.trans g2.symm))])
  rw [hs, g7]
  have : (addTo D c gs f.attr y).isSome = true := by simp [addTo, hc]
  obtain ⟨o', ho'⟩ := Option.isSome_iff_exists.1 this
  rw [ho']
  exact ⟨o', rfl, rfl⟩

/-- The part is added. -/
theorem put_spec (D : Digits) {c : Cls} {r : Row} {q : Maker} (h : RowSpec c r q) {data : Data Cls}
    {o : Val Cls} (ho : Append.construct D c data = some (.ok o)) (fs : List (String × Val Cls)) :
    ∃ o', Append.construct D c (q.added data (.obj q.part fs)) = some (.ok o') ∧
      r.put.run D o (.obj q.part fs) = some (.ok o') := by
  rcases h.put with ⟨m, hp, hm, hf, ha, f, hf1, hf2, hf3⟩ | ⟨a, hp, hm, f, hf1, ⟨hf2, hf3, hf4⟩, hf5, hf6⟩
  · have hacc : accepts c q.owner (.obj q.part fs) = true := by
      rw [← hf2, accepts_iff hf1, List.any_eq_true]
      exact ⟨_, hf3, by simp [fitsS]⟩
    have hpart : part c m (.obj q.part fs) = some (q.owner, .obj q.part fs) := by
      simp only [part, hf, meant, if_neg ha, List.find?_cons, hacc, Option.map_some]
    obtain ⟨o', h1, h2⟩ := add_one D h.owner ho hpart
    rw [hp]
    refine ⟨o', ?_, h2⟩
    unfold Maker.added
    rw [hm]
    exact h1
  · have hl : ∀ k, lastOf (q.added data (.obj q.part fs)) k = if q.owner = k then
        some (some (.obj q.part fs)) else lastOf data k := by
      intro k
      unfold Maker.added
      rw [hm]
      exact Verif.Codec.Map.lastOf_append
    generalize q.added data (.obj q.part fs) = data2 at hl
    have hv : Valid c data := valid_of_ok (r := some o) ho
    have hv2 : Valid c data2 := by
      refine ⟨fun p hn => ?_, fun e he hq => ?_, fun e he => ?_⟩
      · rw [hl] at hn
        by_cases hpo : q.owner = p
        · exact ⟨f, hf1, hf2.trans hpo⟩
        · rw [if_neg hpo] at hn
          exact hv.known p hn
      · rw [hl]
        split
        · simp
        · exact hv.there e he hq
      · by_cases hpo : q.owner = e.param
        · obtain rfl := param_inj he hf1 (hpo.symm.trans hf2.symm)
          simp only [argOk, hl, if_pos hpo, Option.getD_some, normal, fits, hf4, decide_true,
            Bool.true_and, List.any_eq_true]
          exact ⟨_, hf6, by simp [fitsS]⟩
        · have := hv.fit e he
          simp only [argOk, hl, if_neg hpo] at this ⊢
          exact this
    have hr : ∀ gs, renTop D c gs = some gs := fun gs => by simp [renTop, h.owner]
    rw [construct_valid D hv, hr] at ho
    simp only [Option.map_some, Option.some.injEq, Except.ok.injEq] at ho
    subst ho
    rw [construct_valid D hv2, hr]
    refine ⟨_, rfl, ?_⟩
    rw [hp]
    simp only [Put.run, Option.some.injEq, Except.ok.injEq, Val.obj.injEq, true_and]
    apply canon_congr
    intro e he
    by_cases hea : e.attr = a
    · have : e = f := key_inj (g := Field.attr) (attrs_nodup c) he hf1 (hea.trans hf3.symm)
      subst this
      rw [if_pos hea]
      simp only [arg, hl, if_pos hf2.symm, Option.getD_some, normal]
    · rw [if_neg hea, dictGet_canon (attrs_nodup c) _ he]
      have hne : q.owner ≠ e.param := fun hpo =>
        hea ((param_inj he hf1 (hpo.symm.trans hf2.symm)) ▸ hf3)
      simp only [arg, hl, if_neg hne]

/-- A call Python accepts. -/
theorem created (D : Digits) {c : Cls} {q : Maker} (hq : q ∈ makers c) {data : Data Cls} {o : Val Cls}
    (ho : Append.construct D c data = some (.ok o)) {pos : List (Option (Val Cls))} {kw : Data Cls}
    (hc : q.Call pos kw) :
    q.Outcome D c data (q.named pos kw) (create D o q.method pos kw) := by
  obtain ⟨r, hr, h⟩ := row_spec hq
  obtain ⟨bound, rest, hb, hs⟩ := args_same D h hc
  obtain ⟨gs, rfl⟩ := construct_obj ho
  cases hx : Append.construct D q.part (q.named pos kw) with
  | none => exact absurd hx (construct_some (h.cls ▸ h.part) _)
  | some res =>
    rw [hx] at hs
    cases res with
    | error e =>
      right
      refine ⟨e, hx, ?_⟩
      simp only [create, hr, hb, hs]
    | ok x =>
      left
      obtain ⟨fs, rfl⟩ := construct_obj hx
      obtain ⟨o', h1, h2⟩ := put_spec D h ho fs
      refine ⟨_, o', hx, h1, ?_⟩
      simp only [create, hr, hb, hs, h2]
      rfl

/-- A call Python does not accept. -/
theorem not_created (D : Digits) {c : Cls} {q : Maker} (hq : q ∈ makers c) (fs : List (String × Val Cls))
    {pos : List (Option (Val Cls))} {kw : Data Cls} (hk : (kw.map Prod.fst).Nodup)
    (hc : ¬ q.Call pos kw) : create D (.obj c fs) q.method pos kw = some (.error .typeError) := by
  obtain ⟨r, hr, h⟩ := row_spec hq
  simp only [create, hr]
  cases hb : bindArgs r.params pos kw with
  | error e =>
    unfold bindArgs at hb
    simp only at hb
    split at hb
    · cases hb; rfl
    · split at hb
      · cases hb; rfl
      · split at hb
        · cases hb; rfl
        · cases hb
  | ok br =>
    obtain ⟨bound, rest⟩ := br
    unfold bindArgs at hb
    simp only at hb
    split at hb
    · cases hb
    rename_i h1
    split at hb
    · cases hb
    rename_i h2
    split at hb
    · cases hb
    rename_i h3
    cases hb
    simp only [callInit, List.length_map]
    rw [if_pos]
    apply Classical.byContradiction
    intro hno
    apply hc
    refine ⟨by rw [← h.params]; exact Nat.not_lt.1 h1, ?_, ?_⟩
    · simp only [Maker.named, List.map_append, List.map_map, zip_take]
      have hpn : (q.params.take pos.length).Nodup := h.paramsNodup.sublist (List.take_sublist _ _)
      refine List.nodup_append.2 ⟨List.nodup_append.2 ⟨hpn, hk, ?_⟩, h.fixedNodup, ?_⟩
      · intro a ha b hb hab
        subst hab
        apply h2
        obtain ⟨e, he, rfl⟩ := List.mem_map.1 hb
        rw [List.any_eq_true]
        exact ⟨e, he, by rw [h.params]; simpa using ha⟩
      · intro a ha b hb hab
        subst hab
        obtain ⟨e, he, rfl⟩ := List.mem_map.1 hb
        have ht := h.fixed e he
        have hnp : e.1 ∉ q.params := by
          rcases h.same _ ht with ⟨h1, -⟩ | ⟨e', he', h1, h2⟩
          · cases h1
          · rw [(Prod.mk.inj h1).1]; exact h2
        rcases List.mem_append.1 ha with ha | ha
        · exact hnp (List.mem_of_mem_take ha)
        · apply hno
          obtain ⟨e', he', hee⟩ := List.mem_map.1 ha
          rw [List.any_eq_true]
          refine ⟨e', List.mem_filter.2 ⟨he', ?_⟩, ?_⟩
          · rw [h.params, hee]; simpa using hnp
          · rw [← targets_fst r, hee]
            simpa using ⟨_, ht⟩
    · have : lastOf (r.params.zip pos ++ kw.filter fun kv => decide (kv.1 ∈ r.params)) "name" ≠ none := by
        intro hn
        apply h3
        rw [hn]
        rfl
      rw [lastOf_iff, List.map_append] at this
      simp only [Maker.named, List.map_append]
      apply List.mem_append_left
      rcases List.mem_append.1 this with hm | hm
      · rw [h.params] at hm
        exact List.mem_append_left _ hm
      · apply List.mem_append_right
        obtain ⟨e, he, hee⟩ := List.mem_map.1 hm
        exact List.mem_map.2 ⟨e, (List.mem_filter.1 he).1, hee⟩

end Verif.Codec.Create
