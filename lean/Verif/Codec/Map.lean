import Verif.Codec.MapSpec
import Verif.Codec.Reject
/-
What the reader methods read is what `Verif/Codec/MapSpec.lean` says.
-/
set_option linter.unusedSimpArgs false
set_option linter.unusedVariables false
namespace Verif.Codec.Map
open Verif.Py Verif.Enums Verif.Num Verif.Xml Verif.Xml.Spec Verif.Codec Verif.Codec.Spec
open Verif.Codec.Load Verif.Codec.Reject
open Verif.Ref (RefObj construct DestArg refClasses baseInit checkDest)

/-! ### Static checks -/

/-- An element with this tag, read this way, is of the class the tag stands for. -/
def kindOk (t : String) (a : RAtom RM) : Bool :=
  match dictGet tagClasses t with
  | none => true
  | some c =>
    match a with
    | .meth m => objClass m t = some c
    | _ => false

def isPlain : RAtom RM → Bool
  | .conv .text | .conv .str => false
  | _ => true

def isConvStr : RAtom RM → Bool
  | .conv .str => true
  | _ => false

def isConvText : RAtom RM → Bool
  | .conv .text => true
  | _ => false

/-- The branches are for these tags. -/
def altsOk (tags : List String) (alts : RAlts RM) : Bool :=
  decide (alts.map (·.1) = tags.map some) &&
  alts.all fun x => !isConvStr x.2 &&
    match x.1 with
    | some t => kindOk t x.2
    | none => false

/-- The branches are for these tags, or for any tag. -/
def listOk (tags : List String) (alts : RAlts RM) : Bool :=
  match tags, alts with
  | [], [(none, a)] => !isConvStr a
  | _, _ => !tags.isEmpty && altsOk tags alts

/-- The statement reads what is in the place. -/
def placeOk : Place → RItem RM → Bool
  | .attribute n, .attr n' _ _ _ => n = n'
  | .content, .text _ .text => true
  | .text t, .required t' _ => t = t'
  | .text t, .one t' _ .self [(none, a)] _ false => t = t' && isConvText a
  | .shown t, .one t' _ .self [(none, a)] _ false => t = t' && isConvStr a
  | .child t, .one t' _ .self [(none, a)] _ false => t = t' && isPlain a
  | .inner t tags, .one t' _ .first alts _ _ =>
    t = t' && altsOk tags alts && alts.all fun x => isPlain x.2 &&
      match x.1 with
      | some t => (dictGet tagClasses t).isSome
      | none => false
  | .innerTag t u, .one t' _ (.tag u') [(none, a)] _ false => t = t' && u = u' && isPlain a
  | .list t tags, .many t' _ alts _ _ => t = t' && listOk tags alts
  | .direct tags, .flat _ alts _ => listOk tags alts
  | .oneOf tags texts, .choice _ alts _ =>
    decide (alts.map (·.1) = tags) && alts.all fun x => !isConvStr x.2 && kindOk x.1 x.2 &&
      (!isConvText x.2 || decide (x.1 ∈ texts))
  | _, _ => false

/-- Each attribute in the table is read from its place, and no others are read. -/
def itemsOk (c : Cls) (items : List (RItem RM)) (skip : Option String) : Bool :=
  (parts c).all (fun ap =>
    ((Schema.ctor c).any fun f => f.attr = ap.1) &&
    (Schema.ctor c).all fun f => f.attr ≠ ap.1 || some f.param = skip ||
      ((items.any fun ri => ri.key = f.param) &&
        items.all fun ri => ri.key ≠ f.param || placeOk ap.2 ri)) &&
  (Schema.ctor c).all fun f => ((parts c).any fun ap => ap.1 = f.attr) ||
    (some f.param ≠ skip && items.all fun ri => ri.key ≠ f.param)

def methOk : RMethod Cls RM → Bool
  | .node c items => itemsOk c items none
  | .mixed c items key tags _ =>
    itemsOk c items (some key) && (items.all fun ri => ri.key ≠ key) &&
    ((Schema.ctor c).all fun f => f.param ≠ key ||
      (parts c).all fun ap => ap.1 ≠ f.attr || ap.2 = .pieces (tags.map (·.1))) &&
    !tags.isEmpty && tags.all fun x => kindOk x.1 (.meth x.2) && (objClass x.2 x.1).isSome
  | .ref cls (some d) =>
    match construct cls "" .omitted with
    | .ok r =>
      match xmlToEnum "IdentifiableSubTypes" d defaultVersion with
      | .ok m => m = ⟨"IdentifiableSubTypes", r.dest⟩
      | .error _ => false
    | .error _ => false
  | _ => true

theorem meths_fixed : ∀ n < 202, methOk (rm (RM.ofNat n) "") = true := by decide +kernel

theorem meths_ok (m : RM) (t : String) : methOk (rm m t) = true := by
  by_cases hb : byTag m = true
  · cases m <;> simp only [byTag, Bool.false_eq_true] at hb
    · show methOk (Reader.multi_language_long_name t) = true
      unfold Reader.multi_language_long_name
      split <;> first | rfl | decide +kernel
    · show methOk (Reader.multi_language_overview_paragraph t) = true
      unfold Reader.multi_language_overview_paragraph
      split <;> first | rfl | decide +kernel
    · show methOk (Reader.port_in_composition_type_instance_ref t) = true
      unfold Reader.port_in_composition_type_instance_ref
      split <;> first | rfl | decide +kernel
  · rw [rm_fixed (by simpa using hb) t ""]
    have h : m.ctorIdx < 202 := by cases m <;> decide
    have := meths_fixed _ h
    rwa [RM.ofNat_ctorIdx] at this

/-! ### Texts -/

theorem conv_says {co : Conv} {s : String} {x : Option (Val Cls)} (h : co.run (some s) = .ok x) :
    ∃ v, x = some v ∧ TextSays s v := by
  have hnum : ∀ n, readNumber s.toList = .ok n → IsNumber s n := by
    intro n hn
    unfold readNumber at hn
    split at hn
    · rename_i i hi
      cases hn
      exact .inl hi
    · split at hn
      · rename_i f hf
        cases hn
        exact .inl hf
      · cases hn
  have hval : ∀ n, numericalValueOfText s.toList = .ok n → IsNumber s n.value := by
    intro n hn
    unfold numericalValueOfText at hn
    simp only at hn
    split at hn
    · rename_i i hi
      cases hn
      exact .inr hi
    · split at hn
      · rename_i f hf
        cases hn
        exact .inl hf
      · cases hn
  cases co <;> simp only [Conv.run] at h
  case text => cases h; exact ⟨_, rfl, rfl⟩
  case str => cases h; exact ⟨_, rfl, rfl⟩
  case enum cls =>
    split at h
    · rename_i m hm
      cases h
      refine ⟨_, rfl, ?_⟩
      have := (xmlToEnum_ok hm).1
      simp only [TextSays, this]
      exact hm
    · cases h
  case boolean =>
    split at h
    · cases h; exact ⟨_, rfl, by assumption⟩
    · split at h
      · cases h; exact ⟨_, rfl, by assumption⟩
      · cases h
  case number =>
    split at h
    · rename_i n hn; cases h; exact ⟨_, rfl, hnum n hn⟩
    · cases h
  case integer =>
    split at h
    · rename_i n hn
      cases h
      refine ⟨_, rfl, .inr ?_⟩
      unfold readInteger at hn
      split at hn
      · cases hn; assumption
      · cases hn
    · cases h
  case int =>
    split at h
    · cases h; exact ⟨_, rfl, .inl (by assumption)⟩
    · cases h
  case float =>
    split at h
    · cases h; exact ⟨_, rfl, .inl (by assumption)⟩
    · cases h
  case posInt =>
    split at h
    · rename_i n hn
      cases h
      refine ⟨_, rfl, .inr ?_⟩
      unfold positiveIntegerOfText at hn
      split at hn
      · cases hn
      · rename_i i hi
        split at hn
        · cases hn
        · cases hn
          rw [hi]
          congr 1
          omega
    · cases h
  case numVal =>
    split at h
    · rename_i n hn; cases h; exact ⟨_, rfl, hval _ hn⟩
    · rename_i n _ hn; cases h; exact ⟨_, rfl, hval _ hn⟩
    · cases h
  case numPlain =>
    split at h
    · rename_i n hn; cases h; exact ⟨_, rfl, hval _ hn⟩
    · cases h
  case intOrText =>
    split at h
    · cases h; exact ⟨_, rfl, .inl (by assumption)⟩
    · cases h; exact ⟨_, rfl, rfl⟩
  case int0OrText =>
    split at h
    · cases h; exact ⟨_, rfl, .inr (by assumption)⟩
    · cases h; exact ⟨_, rfl, rfl⟩
  case castFloat =>
    split at h
    · rename_i n hn
      cases h
      refine ⟨_, rfl, ?_⟩
      unfold readNumber at hn
      split at hn
      · rename_i i hi
        cases hn
        exact .inr ⟨i, hi, rfl⟩
      · split at hn
        · rename_i f hf
          cases hn
          exact .inl hf
        · cases hn
    · cases h

theorem conv_none {co : Conv} {x : Option (Val Cls)} (h : co.run none = .ok x) :
    (co = .text ∧ x = none) ∨ (co = .str ∧ x = some (.str "None")) := by
  cases co <;> simp only [Conv.run] at h <;> cases h
  · exact .inl ⟨rfl, rfl⟩
  · exact .inr ⟨rfl, rfl⟩

/-! ### Elements -/

/-- What each reader method makes of an element. -/
abbrev den (tl : Option String) (t : String) (as : Attrs) (ds : List Dom) : RD :=
  .mk t as (leadText ds) tl
    (fun m => runReader tables m t as (leadText ds) (rdenKids tables ds)) (rdenKids tables ds)

/-- Whatever a method makes of one of the elements is what the element says. -/
def Sub (ds : List Dom) : Prop := ∀ t as xs, .elem t as xs ∈ ds → ∀ m v,
  runReader tables m t as (leadText xs) (rdenKids tables xs) = .ok v → Says (.elem t as xs) v

theorem first_mem {t : String} {d : Dom} : ∀ {ds : List Dom}, firstElem t ds = some d →
    d ∈ ds ∧ ∃ as xs, d = .elem t as xs
  | [], h => by simp [firstElem] at h
  | x :: ds, h => by
    rw [firstElem] at h
    split at h
    · rename_i hx
      cases h
      refine ⟨List.mem_cons_self, ?_⟩
      cases d with
      | text s => simp [hasTag] at hx
      | elem u as xs => simp only [hasTag, decide_eq_true_eq] at hx; subst hx; exact ⟨_, _, rfl⟩
    · exact ⟨List.mem_cons_of_mem _ (first_mem h).1, (first_mem h).2⟩

theorem child_cases (t : String) (ds : List Dom) :
    (childOf t (rdenKids tables ds) = none ∧ firstElem t ds = none) ∨
    ∃ as xs tl, firstElem t ds = some (.elem t as xs) ∧ .elem t as xs ∈ ds ∧
      childOf t (rdenKids tables ds) = some (den tl t as xs) := by
  obtain ⟨h1, h2⟩ := child_first t ds
  cases hc : childOf t (rdenKids tables ds) with
  | none =>
    rw [hc] at h1
    left
    refine ⟨rfl, ?_⟩
    cases hf : firstElem t ds with
    | none => rfl
    | some d => rw [hf] at h1; cases h1
  | some k =>
    right
    obtain ⟨d, tl, hd, hk⟩ := h2 k hc
    obtain ⟨hm, as, xs, rfl⟩ := first_mem hd
    rw [rden_elem] at hk
    cases hk
    exact ⟨as, xs, tl, hd, hm, rfl⟩

theorem elems_cases : ∀ ds : List Dom,
    (rdenKids tables ds = [] ∧ elemsOf ds = []) ∨
    ∃ t as xs tl rest ks, elemsOf ds = .elem t as xs :: rest ∧ .elem t as xs ∈ ds ∧
      rdenKids tables ds = den tl t as xs :: ks
  | [] => .inl ⟨by rw [rdenKids], rfl⟩
  | .text s :: ds => by
    rw [rdenKids, rden, elemsOf]
    rcases elems_cases ds with h | ⟨t, as, xs, tl, rest, ks, h1, h2, h3⟩
    · exact .inl h
    · exact .inr ⟨t, as, xs, tl, rest, ks, h1, List.mem_cons_of_mem _ h2, h3⟩
  | .elem t as xs :: ds => by
    rw [rdenKids, rden_elem, elemsOf]
    exact .inr ⟨t, as, xs, _, _, _, rfl, List.mem_cons_self, rfl⟩

theorem limit_says {tl : Option String} {t : String} {as : Attrs} {xs : List Dom}
    {x : Option (Val Cls)} (h : readLimit (den tl t as xs) = .ok x) :
    ∃ v, x = some v ∧ Says (.elem t as xs) v := by
  unfold readLimit at h
  simp only [RDen.text, RDen.attrs] at h
  split at h
  · cases h
  · rename_i s hs
    split at h
    · rename_i m n hm hn
      cases h
      refine ⟨_, rfl, .limit hs ?_ ?_ ?_⟩
      · obtain ⟨v, hv, hsay⟩ := conv_says (co := .number) (s := s) (x := some (.num n))
          (by simp only [Conv.run, hn])
        cases hv
        exact hsay
      · intro hi
        rw [hi] at hm
        cases hm
        rfl
      · intro i hi
        rw [hi] at hm
        exact hm
    · cases h
    · cases h

theorem atom_says {tl : Option String} {t : String} {as : Attrs} {xs : List Dom}
    (hs : ∀ m v, runReader tables m t as (leadText xs) (rdenKids tables xs) = .ok v →
      Says (.elem t as xs) v)
    {a : RAtom RM} {x : Option (Val Cls)} (h : readAtom (den tl t as xs) a = .ok x)
    (ha : isConvStr a = false) :
    (∃ v, x = some v ∧ Says (.elem t as xs) v) ∨
      (x = none ∧ isConvText a = true ∧ leadText xs = none) := by
  cases a with
  | meth m =>
    simp only [readAtom, RDen.read] at h
    split at h
    · rename_i v hv
      cases h
      exact .inl ⟨v, rfl, hs m v hv⟩
    · cases h
  | limit => exact .inl (limit_says h)
  | conv co =>
    simp only [readAtom, RDen.text] at h
    cases hl : leadText xs with
    | none =>
      rw [hl] at h
      rcases conv_none h with ⟨rfl, rfl⟩ | ⟨rfl, rfl⟩
      · exact .inr ⟨rfl, rfl, rfl⟩
      · simp [isConvStr] at ha
    | some s =>
      rw [hl] at h
      obtain ⟨v, rfl, hv⟩ := conv_says h
      exact .inl ⟨v, rfl, .text hl hv⟩

theorem kind_of {tl : Option String} {t : String} {as : Attrs} {xs : List Dom}
    {a : RAtom RM} {v : Val Cls} (hk : kindOk t a = true)
    (h : readAtom (den tl t as xs) a = .ok (some v)) : Kind t v := by
  intro c hc
  unfold kindOk at hk
  rw [hc] at hk
  simp only at hk
  split at hk
  · rename_i m
    simp only [readAtom, RDen.read] at h
    split at h
    · rename_i w hw
      cases h
      have := run_res hw
      have hk := of_decide_eq_true hk
      unfold objClass at hk
      split at hk
      · rename_i c' _ hm
        cases hk
        rw [hm] at this
        exact this
      · rename_i c' _ _ _ _ hm
        cases hk
        rw [hm] at this
        exact this
      · cases hk
    · cases h
  · cases hk

theorem pick_tags {t : String} : ∀ {tags : List String} {alts : RAlts RM},
    alts.map (·.1) = tags.map some →
    (pickTag t alts = none ↔ t ∉ tags) ∧ ∀ a, pickTag t alts = some a → (some t, a) ∈ alts
  | [], [], _ => by simp [pickTag]
  | [], _ :: _, h => by simp at h
  | _ :: _, [], h => by simp at h
  | u :: tags, (x, a) :: alts, h => by
    simp only [List.map_cons, List.cons.injEq] at h
    obtain ⟨rfl, h⟩ := h
    obtain ⟨h1, h2⟩ := pick_tags (t := t) h
    rw [pickTag]
    by_cases hu : u = t
    · subst hu
      simp
    · have : ¬ (some u = none ∨ some u = some t) := by simp [hu]
      rw [if_neg this]
      refine ⟨?_, ?_⟩
      · rw [h1]
        simp [Ne.symm hu]
      · intro b hb
        exact List.mem_cons_of_mem _ (h2 b hb)

theorem pick_any {t : String} {a : RAtom RM} : pickTag t [(none, a)] = some a := by
  simp [pickTag]

/-- One element of a list. -/
theorem elem_says {tl : Option String} {t : String} {as : Attrs} {xs : List Dom}
    (hs : ∀ m v, runReader tables m t as (leadText xs) (rdenKids tables xs) = .ok v →
      Says (.elem t as xs) v)
    {tags : List String} {alts : RAlts RM} (hl : listOk tags alts = true) {miss : Option PyErr}
    {vs : List (Val Cls)} (h : readElem alts miss (den tl t as xs) = .ok vs) :
    (vs = [] ∧ tags ≠ [] ∧ t ∉ tags) ∨ ∃ v, vs = [v] ∧ Says (.elem t as xs) v ∧
      (tags = [] ∨ (t ∈ tags ∧ Kind t v)) := by
  have key : ∀ a, pickTag t alts = some a → isConvStr a = false →
      ∃ v, vs = [v] ∧ Says (.elem t as xs) v ∧ readAtom (den tl t as xs) a = .ok (some v) := by
    intro a ha hc
    unfold readElem readCall at h
    simp only [RDen.tag, ha] at h
    split at h
    · rename_i v hv
      cases h
      split at hv
      · rename_i x hx
        cases hv
        rcases atom_says hs hx hc with ⟨w, hw, hsay⟩ | ⟨hw, -⟩
        · cases hw
          exact ⟨v, rfl, hsay, hx⟩
        · cases hw
      · cases hv
    · rename_i hv
      split at hv <;> cases hv
    · cases h
    · cases h
  unfold listOk at hl
  split at hl
  · obtain ⟨v, hv, hsay, -⟩ := key _ pick_any (by simpa using hl)
    exact .inr ⟨v, hv, hsay, .inl rfl⟩
  · simp only [altsOk, Bool.and_eq_true, decide_eq_true_eq, Bool.not_eq_true',
      List.isEmpty_eq_false_iff, List.all_eq_true] at hl
    obtain ⟨hne, hmap, hall⟩ := hl
    obtain ⟨h1, h2⟩ := pick_tags (t := t) hmap
    cases hp : pickTag t alts with
    | none =>
      left
      refine ⟨?_, hne, h1.1 hp⟩
      unfold readElem readCall at h
      simp only [RDen.tag, hp] at h
      split at h
      · rename_i v hv
        split at hv <;> cases hv
      · cases h; rfl
      · cases h
      · cases h
    | some a =>
      have hx := hall _ (h2 a hp)
      simp only at hx
      obtain ⟨v, hv, hsay, hr⟩ := key a hp hx.1
      refine .inr ⟨v, hv, hsay, .inr ⟨?_, kind_of hx.2 hr⟩⟩
      apply Classical.byContradiction
      intro hn
      rw [h1.2 hn] at hp
      cases hp

theorem list_says {tags : List String} {alts : RAlts RM} (hl : listOk tags alts = true)
    {miss : Option PyErr} : ∀ {ds : List Dom} {vs : List (Val Cls)}, Sub ds →
    readList alts miss (rdenKids tables ds) = .ok vs → Listed tags ds vs
  | [], vs, hs, h => by
    rw [rdenKids] at h
    cases h
    exact .nil
  | .text s :: ds, vs, hs, h => by
    rw [rdenKids, rden] at h
    exact .between (list_says hl (fun t as xs hm => hs t as xs (List.mem_cons_of_mem _ hm)) h)
  | .elem t as xs :: ds, vs, hs, h => by
    rw [rdenKids, rden_elem] at h
    unfold readList at h
    simp only [List.map_cons] at h
    cases he : readElem alts miss (den (leadText ds) t as xs) with
    | error e => rw [he] at h; cases h
    | ok r =>
      rw [he] at h
      simp only [collect] at h
      split at h
      · cases h
      · rename_i rest hrest
        cases h
        have ih := list_says hl (fun t as xs hm => hs t as xs (List.mem_cons_of_mem _ hm)) hrest
        rcases elem_says (hs t as xs List.mem_cons_self) hl he with
          ⟨rfl, hne, hn⟩ | ⟨v, rfl, hsay, hk⟩
        · exact .skip hne hn ih
        · rcases hk with rfl | ⟨hm, hk⟩
          · exact .any hsay ih
          · exact .cons hm hk hsay ih

/-! ### Statements -/

theorem text_normal {s : String} {v : Val Cls} (h : TextSays s v) : normal (some v) = some v := by
  cases v <;> first | rfl | exact h.elim

theorem says_normal {d : Dom} {v : Val Cls} (h : Says d v) : normal (some v) = some v := by
  cases h with
  | text _ h => exact text_normal h
  | _ => rfl

theorem normal_list (vs : List (Val Cls)) : normal (some (.list vs)) = asList vs := by
  cases vs <;> rfl

theorem normal_str (x : Option String) : normal (x.map Val.str) = (x.map Val.str : Option (Val Cls)) := by
  cases x <;> rfl

/-- What the statement finds for the argument, and that it is in the place. -/
abbrev Finds (p : Place) (as : Attrs) (ds : List Dom) (ri : RItem RM) (data : Data Cls) : Prop :=
  (∀ x, (ri.key, x) ∈ data → Found p as ds (normal x)) ∧
  ((∀ x, (ri.key, x) ∉ data) → Found p as ds none)

theorem finds_one {p : Place} {as : Attrs} {ds : List Dom} {ri : RItem RM} {x : Option (Val Cls)}
    (h : Found p as ds (normal x)) : Finds p as ds ri [(ri.key, x)] := by
  refine ⟨?_, ?_⟩
  · intro y hy
    simp only [List.mem_singleton, Prod.mk.injEq, true_and] at hy
    subst hy
    exact h
  · intro hn
    exact absurd (by simp) (hn x)

theorem finds_nil {p : Place} {as : Attrs} {ds : List Dom} {ri : RItem RM}
    (h : Found p as ds none) : Finds p as ds ri [] :=
  ⟨fun _ hx => (by cases hx), fun _ => h⟩

/-- The only branch. -/
theorem call_any {k : RD} {a : RAtom RM} {miss : Option PyErr} {vs : List (Option (Val Cls))}
    (h : readCall [(none, a)] miss k = .ok vs) : ∃ x, vs = [x] ∧ readAtom k a = .ok x := by
  unfold readCall at h
  rw [pick_any] at h
  simp only at h
  split at h
  · rename_i x hx
    cases h
    exact ⟨x, rfl, hx⟩
  · cases h

theorem plain_says {tl : Option String} {t : String} {as : Attrs} {xs : List Dom}
    (hs : ∀ m v, runReader tables m t as (leadText xs) (rdenKids tables xs) = .ok v →
      Says (.elem t as xs) v)
    {a : RAtom RM} {x : Option (Val Cls)} (h : readAtom (den tl t as xs) a = .ok x)
    (ha : isPlain a = true) : ∃ v, x = some v ∧ Says (.elem t as xs) v := by
  have hn : isConvStr a = false := by
    cases a with
    | conv c => cases c <;> first | rfl | cases ha
    | _ => rfl
  rcases atom_says hs h hn with h | ⟨-, h, -⟩
  · exact h
  · have hn' : isConvText a = false := by
      cases a with
      | conv c => cases c <;> first | rfl | cases ha
      | _ => rfl
    rw [hn'] at h
    cases h

theorem item_says {as : Attrs} {ds : List Dom} (hs : Sub ds)
    (hss : ∀ t as xs, Dom.elem t as xs ∈ ds → Sub xs) {p : Place} {ri : RItem RM}
    (hp : placeOk p ri = true) {data : Data Cls}
    (h : readItem as (leadText ds) (rdenKids tables ds) ri = .ok data) :
    Finds p as ds ri data := by
  unfold placeOk at hp
  split at hp
  case h_1 n n' key co req =>
    have hp := of_decide_eq_true hp
    subst hp
    simp only [readItem] at h
    split at h
    · rename_i hn
      split at h
      · cases h
      · cases h
        exact finds_nil (.attribute_none hn)
    · rename_i s hn
      split at h
      · rename_i x hx
        cases h
        obtain ⟨v, rfl, hv⟩ := conv_says hx
        exact finds_one (ri := .attr n key co req) (by rw [text_normal hv]; exact .attribute hn hv)
      · cases h
  case h_2 key =>
    simp only [readItem, Conv.run] at h
    cases h
    exact finds_one (ri := .text key .text) (by rw [normal_str]; exact .content)
  case h_3 t t' key =>
    have hp := of_decide_eq_true hp
    subst hp
    simp only [readItem] at h
    rcases child_cases t ds with ⟨hc, hf⟩ | ⟨as', xs, tl, hf, hm, hc⟩
    · rw [hc] at h; cases h
    · rw [hc] at h
      cases h
      exact finds_one (ri := .required t key) (by
        show Found _ _ _ (normal ((leadText xs).map Val.str))
        rw [normal_str]
        exact .text hf)
  case h_4 t t' key a miss =>
    simp only [Bool.and_eq_true, decide_eq_true_eq] at hp
    obtain ⟨rfl, ha⟩ := hp
    simp only [readItem] at h
    rcases child_cases t ds with ⟨hc, hf⟩ | ⟨as', xs, tl, hf, hm, hc⟩
    · rw [hc] at h; cases h; exact finds_nil (.text_none hf)
    · rw [hc] at h
      simp only [Inner.get] at h
      split at h
      · rename_i vs hvs
        cases h
        obtain ⟨x, rfl, hx⟩ := call_any hvs
        have : a = .conv .text := by
          cases a <;> simp only [isConvText, Bool.false_eq_true] at ha
          rename_i c
          cases c <;> first | rfl | (simp [isConvText] at ha)
        subst this
        simp only [readAtom, RDen.text, Conv.run] at hx
        cases hx
        exact finds_one (ri := .one t key .self [(none, .conv .text)] miss false)
          (by rw [normal_str]; exact .text hf)
      · simp at h
  case h_5 t t' key a miss =>
    simp only [Bool.and_eq_true, decide_eq_true_eq] at hp
    obtain ⟨rfl, ha⟩ := hp
    simp only [readItem] at h
    rcases child_cases t ds with ⟨hc, hf⟩ | ⟨as', xs, tl, hf, hm, hc⟩
    · rw [hc] at h; cases h; exact finds_nil (.shown_none hf)
    · rw [hc] at h
      simp only [Inner.get] at h
      split at h
      · rename_i vs hvs
        cases h
        obtain ⟨x, rfl, hx⟩ := call_any hvs
        have : a = .conv .str := by
          cases a <;> simp only [isConvStr, Bool.false_eq_true] at ha
          rename_i c
          cases c <;> first | rfl | (simp [isConvStr] at ha)
        subst this
        simp only [readAtom, RDen.text, Conv.run] at hx
        cases hx
        exact finds_one (ri := .one t key .self [(none, .conv .str)] miss false) (.shown hf)
      · simp at h
  case h_6 t t' key a miss =>
    simp only [Bool.and_eq_true, decide_eq_true_eq] at hp
    obtain ⟨rfl, ha⟩ := hp
    simp only [readItem] at h
    rcases child_cases t ds with ⟨hc, hf⟩ | ⟨as', xs, tl, hf, hm, hc⟩
    · rw [hc] at h; cases h; exact finds_nil (.child_none hf)
    · rw [hc] at h
      simp only [Inner.get] at h
      split at h
      · rename_i vs hvs
        cases h
        obtain ⟨x, rfl, hx⟩ := call_any hvs
        obtain ⟨v, rfl, hv⟩ := plain_says (hs t as' xs hm) hx ha
        exact finds_one (ri := .one t key .self [(none, a)] miss false)
          (by rw [says_normal hv]; exact .child hf hv)
      · simp at h
  case h_7 t tags t' key alts miss ck =>
    simp only [Bool.and_eq_true, decide_eq_true_eq, altsOk, List.all_eq_true] at hp
    obtain ⟨⟨rfl, hmap, hall⟩, hpl⟩ := hp
    simp only [readItem] at h
    rcases child_cases t ds with ⟨hc, hf⟩ | ⟨as', xs, tl, hf, hm, hc⟩
    · rw [hc] at h; cases h; exact finds_nil (.inner_none hf)
    · rw [hc] at h
      simp only [Inner.get, RDen.kids] at h
      rcases elems_cases xs with ⟨hk, he⟩ | ⟨u, as'', ys, tl', rest, ks, he, hu, hk⟩
      · rw [hk] at h; cases h; exact finds_nil (.inner_empty hf he)
      · rw [hk] at h
        simp only [List.head?_cons] at h
        obtain ⟨h1, h2⟩ := pick_tags (t := u) hmap
        cases hpk : pickTag u alts with
        | none =>
          have hn := h1.1 hpk
          split at h
          · rename_i vs hvs
            cases h
            unfold readCall at hvs
            simp only [RDen.tag, hpk] at hvs
            split at hvs
            · cases hvs
              exact finds_nil (.inner_other hf he hn)
            · cases hvs
          · split at h
            · cases h; exact finds_nil (.inner_other hf he hn)
            · cases h
        | some a =>
          have hmem := h2 a hpk
          have hx := hall _ hmem
          have hy := hpl _ hmem
          simp only at hx hy
          have hut : u ∈ tags := by
            apply Classical.byContradiction
            intro hn
            rw [h1.2 hn] at hpk
            cases hpk
          split at h
          · rename_i vs hvs
            cases h
            unfold readCall at hvs
            simp only [RDen.tag, hpk] at hvs
            split at hvs
            · rename_i x hrx
              cases hvs
              obtain ⟨v, rfl, hv⟩ := plain_says (hss t as' xs hm u as'' ys hu) hrx hy.1
              exact finds_one (ri := .one t key .first alts miss ck)
                (by rw [says_normal hv]; exact .inner hf he hut (kind_of hx.2 hrx) hv)
            · cases hvs
          · rename_i e hvs
            split at h
            · rename_i hck
              cases h
              obtain ⟨-, rfl⟩ := hck
              unfold readCall at hvs
              simp only [RDen.tag, hpk] at hvs
              split at hvs
              · cases hvs
              · rename_i e hrx
                cases hvs
                refine finds_nil (.inner_broken hf he hut ?_)
                obtain ⟨c, hcl⟩ := Option.isSome_iff_exists.1 hy.2
                have hkd := hx.2
                unfold kindOk at hkd
                rw [hcl] at hkd
                simp only at hkd
                split at hkd
                · rename_i m
                  refine ⟨m, c, hcl, of_decide_eq_true hkd, ?_⟩
                  simp only [readAtom, RDen.read] at hrx
                  split at hrx
                  · cases hrx
                  · rename_i e hr
                    cases hrx
                    unfold readWith
                    rw [rden_elem]
                    exact hr
                · cases hkd
            · cases h
  case h_8 t u t' key u' a miss =>
    simp only [Bool.and_eq_true, decide_eq_true_eq] at hp
    obtain ⟨⟨rfl, rfl⟩, ha⟩ := hp
    simp only [readItem] at h
    rcases child_cases t ds with ⟨hc, hf⟩ | ⟨as', xs, tl, hf, hm, hc⟩
    · rw [hc] at h; cases h; exact finds_nil (.innerTag_none hf)
    · rw [hc] at h
      simp only [Inner.get, RDen.kids] at h
      rcases child_cases u xs with ⟨hc', hf'⟩ | ⟨as'', ys, tl', hf', hm', hc'⟩
      · rw [hc'] at h; cases h; exact finds_nil (.innerTag_empty hf hf')
      · rw [hc'] at h
        simp only at h
        split at h
        · rename_i vs hvs
          cases h
          obtain ⟨x, rfl, hx⟩ := call_any hvs
          obtain ⟨v, rfl, hv⟩ := plain_says (hss t as' xs hm u as'' ys hm') hx ha
          exact finds_one (ri := .one t key (.tag u) [(none, a)] miss false)
            (by rw [says_normal hv]; exact .innerTag hf hf' hv)
        · simp at h
  case h_9 t tags t' key alts miss max =>
    simp only [Bool.and_eq_true, decide_eq_true_eq] at hp
    obtain ⟨rfl, hl⟩ := hp
    simp only [readItem] at h
    rcases child_cases t ds with ⟨hc, hf⟩ | ⟨as', xs, tl, hf, hm, hc⟩
    · rw [hc] at h; cases h; exact finds_nil (.list_none hf)
    · rw [hc] at h
      simp only [RDen.kids] at h
      split at h
      · cases h
      · rename_i vs hvs
        have hfound : Found (.list t tags) as ds (normal (some (.list vs))) := by
          rw [normal_list]
          exact .list hf (list_says hl (hss t as' xs hm) hvs)
        split at h
        · split at h
          · cases h
          · cases h
            exact finds_one (ri := .many t key alts miss _) hfound
        · cases h
          exact finds_one (ri := .many t key alts miss _) hfound
  case h_10 tags key alts miss =>
    simp only [readItem] at h
    split at h
    · cases h
    · rename_i vs hvs
      cases h
      exact finds_one (ri := .flat key alts miss)
        (by rw [normal_list]; exact .direct (list_says hp hs hvs))
  case h_11 tags texts key alts req =>
    simp only [Bool.and_eq_true, decide_eq_true_eq, List.all_eq_true] at hp
    obtain ⟨rfl, hall⟩ := hp
    have hfm : ∀ l : List (String × RAtom RM),
        (∃ r : List (String × Attrs × List Dom × Option String × RAtom RM),
          (l.filterMap fun a => (childOf a.1 (rdenKids tables ds)).map fun k => (k, a.2)) =
            r.map (fun x => (den x.2.2.2.1 x.1 x.2.1 x.2.2.1, x.2.2.2.2)) ∧
          ((l.map (·.1)).filterMap fun t => firstElem t ds) =
            r.map (fun x => Dom.elem x.1 x.2.1 x.2.2.1) ∧
          ∀ x ∈ r, (x.1, x.2.2.2.2) ∈ l ∧ Dom.elem x.1 x.2.1 x.2.2.1 ∈ ds) := by
      intro l
      induction l with
      | nil => exact ⟨[], rfl, rfl, by simp⟩
      | cons y l ih =>
        obtain ⟨r, h1, h2, h3⟩ := ih
        rcases child_cases y.1 ds with ⟨hc, hf⟩ | ⟨as', xs, tl, hf, hm, hc⟩
        · refine ⟨r, ?_, ?_, fun x hx => ⟨List.mem_cons_of_mem _ (h3 x hx).1, (h3 x hx).2⟩⟩
          · rw [List.filterMap_cons, hc]; exact h1
          · rw [List.map_cons, List.filterMap_cons, hf]; exact h2
        · refine ⟨(y.1, as', xs, tl, y.2) :: r, ?_, ?_, ?_⟩
          · rw [List.filterMap_cons, hc, List.map_cons, ← h1]; rfl
          · rw [List.map_cons, List.filterMap_cons, hf, List.map_cons, ← h2]
          · intro x hx
            rcases List.mem_cons.1 hx with rfl | hx
            · exact ⟨List.mem_cons_self, hm⟩
            · exact ⟨List.mem_cons_of_mem _ (h3 x hx).1, (h3 x hx).2⟩
    obtain ⟨r, h1, h2, h3⟩ := hfm alts
    simp only [readItem] at h
    rw [h1] at h
    match r, h2, h3, h with
    | [], h2, h3, h =>
      simp only [List.map_nil] at h
      split at h
      · cases h
      · cases h
        exact finds_nil (.oneOf_none h2)
    | [(t, as', xs, tl, a)], h2, h3, h =>
      simp only [List.map_cons, List.map_nil] at h
      obtain ⟨hm, hd⟩ := h3 _ List.mem_cons_self
      have hx := hall _ hm
      simp only [Bool.or_eq_true, Bool.not_eq_true', decide_eq_true_eq] at hx
      split at h
      · rename_i x hrx
        cases h
        rcases atom_says (hs t as' xs hd) hrx hx.1.1 with ⟨v, rfl, hv⟩ | ⟨rfl, ht, hlt⟩
        · exact finds_one (ri := .choice key alts req)
            (by rw [says_normal hv]; exact .oneOf h2 (kind_of hx.1.2 hrx) hv)
        · refine finds_one (ri := .choice key alts req) (.oneOf_empty h2 ?_ hlt)
          rcases hx.2 with hx | hx
          · rw [ht] at hx; cases hx
          · exact hx
      · cases h
    | _ :: _ :: _, h2, h3, h =>
      simp only [List.map_cons] at h
      cases h
  case h_12 => cases hp

/-! ### Methods -/

theorem lastOf_append {data : Data Cls} {key k : String} {x : Option (Val Cls)} :
    lastOf (data ++ [(key, x)]) k = if key = k then some x else lastOf data k := by
  unfold lastOf
  rw [List.reverse_append]
  simp only [List.reverse_cons, List.reverse_nil, List.nil_append, List.cons_append, dictGet]

theorem arg_says {as : Attrs} {ds : List Dom} (hs : Sub ds)
    (hss : ∀ t as xs, Dom.elem t as xs ∈ ds → Sub xs) {items : List (RItem RM)} {data : Data Cls}
    (h : collect (items.map (readItem as (leadText ds) (rdenKids tables ds))) = .ok data)
    {p : Place} {key : String} (hex : (items.any fun ri => ri.key = key) = true)
    (hall : (items.all fun ri => ri.key ≠ key || placeOk p ri) = true) :
    Found p as ds (normal ((lastOf data key).getD none)) := by
  simp only [List.all_eq_true, Bool.or_eq_true, decide_eq_true_eq] at hall
  cases hl : lastOf data key with
  | some x =>
    obtain ⟨ri, hri, r, hr, hx⟩ := Load.collect_mem h (lastOf_mem hl)
    have hk := item_key hr _ hx
    simp only at hk
    rcases hall ri hri with hn | hp
    · exact absurd hk.symm hn
    · subst hk
      exact (item_says hs hss hp hr).1 x hx
  | none =>
    obtain ⟨ri, hri, hk⟩ := List.any_eq_true.1 hex
    have hk := of_decide_eq_true hk
    subst hk
    obtain ⟨r, hr, hsub⟩ := collect_all h ri hri
    rcases hall ri hri with hn | hp
    · exact absurd rfl hn
    · exact (item_says hs hss hp hr).2 fun x hx => lastOf_none hl _ (hsub _ hx) rfl

theorem obj_says {t : String} {as : Attrs} {ds : List Dom} {c : Cls} {data : Data Cls}
    {v : Val Cls} (hb : build tables c data = .ok v)
    (h1 : ∀ a p, (a, p) ∈ parts c → (∃ f ∈ Schema.ctor c, f.attr = a) ∧
      ∀ f ∈ Schema.ctor c, f.attr = a → Found p as ds (normal ((lastOf data f.param).getD none)))
    (h2 : ∀ f ∈ Schema.ctor c, (∃ p, (f.attr, p) ∈ parts c) ∨ lastOf data f.param = none) :
    Says (.elem t as ds) v := by
  have hv : v = made c data := by
    unfold build buildWith at hb
    split at hb
    · cases hb
    split at hb
    · cases hb
    split at hb
    · cases hb
    cases hb
    rfl
  subst hv
  unfold made
  have hfs : ∀ a w, (a, w) ∈ ((Schema.ctor c).filterMap fun f =>
      (normal ((lastOf data f.param).getD none)).map fun v => (f.attr, v)) →
      ∃ f ∈ Schema.ctor c, f.attr = a ∧ normal ((lastOf data f.param).getD none) = some w := by
    intro a w hw
    obtain ⟨f, hf, hm⟩ := List.mem_filterMap.1 hw
    obtain ⟨w', hw', he⟩ := Option.map_eq_some_iff.1 hm
    cases he
    exact ⟨f, hf, rfl, hw'⟩
  refine .obj ?_ ?_
  · intro a p hap
    obtain ⟨⟨f0, hf0, ha0⟩, hall⟩ := h1 a p hap
    cases hd : dictGet ((Schema.ctor c).filterMap fun f =>
      (normal ((lastOf data f.param).getD none)).map fun v => (f.attr, v)) a with
    | some w =>
      obtain ⟨f, hf, ha, hn⟩ := hfs a w (dictGet_mem _ _ _ hd)
      rw [← hn]
      exact hall f hf ha
    | none =>
      have hn := dictGet_none.1 hd
      have : normal ((lastOf data f0.param).getD none) = none := by
        cases hx : normal ((lastOf data f0.param).getD none) with
        | none => rfl
        | some w =>
          exfalso
          apply hn
          rw [List.mem_map]
          refine ⟨(f0.attr, w), List.mem_filterMap.2 ⟨f0, hf0, ?_⟩, ha0⟩
          rw [hx]
          rfl
      rw [← this]
      exact hall f0 hf0 ha0
  · intro a w hw
    obtain ⟨f, hf, rfl, hn⟩ := hfs a w hw
    rcases h2 f hf with h | h
    · exact h
    · rw [h] at hn
      cases hn

/-- The value is text. -/
def isStrVal : Val Cls → Bool
  | .str _ => true
  | _ => false

theorem objects_list (vs : List (Val Cls)) :
    objectsOf (some (.list vs)) = vs.filter fun v => !isStrVal v := by
  show vs.filter _ = _
  apply List.filter_congr
  intro v _
  cases v <;> rfl

/-- A child of mixed content. -/
theorem part_says {tl : Option String} {t : String} {as : Attrs} {xs : List Dom}
    (hs : ∀ m v, runReader tables m t as (leadText xs) (rdenKids tables xs) = .ok v →
      Says (.elem t as xs) v)
    {x : Option String} {tags : List (String × RM)} {skipped : List String}
    (ht : ∀ y ∈ tags, kindOk y.1 (.meth y.2) = true ∧ (objClass y.2 y.1).isSome = true)
    {vs : List (Val Cls)} (h : readPart x tags skipped (den tl t as xs) = .ok vs) :
    ((vs.filter fun v => !isStrVal v) = [] ∧ t ∉ tags.map (·.1)) ∨
    ∃ v, (vs.filter fun v => !isStrVal v) = [v] ∧ t ∈ tags.map (·.1) ∧ Kind t v ∧
      Says (.elem t as xs) v := by
  have hafter : ∀ ws, (match (den tl t as xs).tail, x with
      | none, _ => .ok []
      | some _, some t => .ok [.str t]
      | some _, none => .error .typeError : Except PyErr (List (Val Cls))) = .ok ws →
      (ws.filter fun v => !isStrVal v) = [] := by
    intro ws hws
    split at hws <;> cases hws <;> rfl
  unfold readPart at h
  cases hd : dictGet tags t with
  | none =>
    have hd' : dictGet tags (den tl t as xs).tag = none := hd
    rw [hd'] at h
    simp only at h
    by_cases hk : (den tl t as xs).tag ∈ skipped
    · rw [if_pos hk] at h
      exact .inl ⟨hafter _ h, dictGet_none.1 hd⟩
    · rw [if_neg hk] at h
      cases h
  | some m =>
    have hd' : dictGet tags (den tl t as xs).tag = some m := hd
    rw [hd'] at h
    simp only [RDen.read] at h
    have hm := dictGet_mem _ _ _ hd
    split at h
    · cases h
    · rename_i v hv
      split at h
      · cases h
      · rename_i ws hws
        cases h
        have hk : readAtom (den tl t as xs) (.meth m) = .ok (some v) := by
          simp only [readAtom, RDen.read, hv]
        have hobj : isStrVal v = false := by
          have := run_res hv
          have hc := (ht _ hm).2
          unfold objClass at hc
          simp only at hc
          split at hc
          · rename_i c i hr; rw [hr] at this; obtain ⟨fs, rfl⟩ := this; rfl
          · rename_i c i k l sk hr; rw [hr] at this; obtain ⟨fs, rfl⟩ := this; rfl
          · cases hc
        refine .inr ⟨v, ?_, List.mem_map.2 ⟨_, hm, rfl⟩, kind_of (ht _ hm).1 hk, hs m v hv⟩
        rw [List.filter_cons, hobj, hafter _ hws]
        rfl

theorem parts_says {x : Option String} {tags : List (String × RM)} {skipped : List String}
    (hne : tags ≠ [])
    (ht : ∀ y ∈ tags, kindOk y.1 (.meth y.2) = true ∧ (objClass y.2 y.1).isSome = true) :
    ∀ {ds : List Dom} {vs : List (Val Cls)}, Sub ds →
    collect ((rdenKids tables ds).map (readPart x tags skipped)) = .ok vs →
    Listed (tags.map (·.1)) ds (vs.filter fun v => !isStrVal v)
  | [], vs, hs, h => by
    rw [rdenKids] at h
    cases h
    exact .nil
  | .text s :: ds, vs, hs, h => by
    rw [rdenKids, rden] at h
    exact .between (parts_says hne ht (fun t as xs hm => hs t as xs (List.mem_cons_of_mem _ hm)) h)
  | .elem t as xs :: ds, vs, hs, h => by
    rw [rdenKids, rden_elem] at h
    simp only [List.map_cons] at h
    cases he : readPart x tags skipped (den (leadText ds) t as xs) with
    | error e => rw [he] at h; cases h
    | ok r =>
      rw [he] at h
      simp only [collect] at h
      split at h
      · cases h
      · rename_i rest hrest
        cases h
        have ih := parts_says hne ht
          (fun t as xs hm => hs t as xs (List.mem_cons_of_mem _ hm)) hrest
        rw [List.filter_append]
        rcases part_says (hs t as xs List.mem_cons_self) ht he with ⟨h1, h2⟩ | ⟨v, h1, h2, h3, h4⟩
        · rw [h1]
          exact .skip (by simpa using hne) h2 ih
        · rw [h1]
          exact .cons h2 h3 h4 ih

theorem construct_text {cn s : String} {d : DestArg} {r : RefObj} (h : construct cn s d = .ok r) :
    r.value = s ∧ ∀ s', construct cn s' d = .ok ⟨r.cls, s', r.dest⟩ := by
  have hc : ∀ {acc x r}, checkDest cn acc s x = .ok r →
      r.value = s ∧ ∀ s', checkDest cn acc s' x = .ok ⟨r.cls, s', r.dest⟩ := by
    intro acc x r h
    unfold checkDest at h ⊢
    split at h
    · rename_i m hm
      cases h
      simp [hm]
    · cases h
  have hb : ∀ {acc x r}, baseInit cn acc s x = .ok r →
      r.value = s ∧ ∀ s', baseInit cn acc s' x = .ok ⟨r.cls, s', r.dest⟩ := by
    intro acc x r h
    unfold baseInit at h ⊢
    split at h
    · split at h
      · exact hc h
      · cases h
      · cases h
    · exact hc h
  unfold construct at h ⊢
  split at h
  · cases h
  · split at h
    · exact hb h
    · split at h
      · exact hb h
      · exact hb h

theorem items_parts {as : Attrs} {ds : List Dom} (hs : Sub ds)
    (hss : ∀ t as xs, Dom.elem t as xs ∈ ds → Sub xs) {c : Cls} {items : List (RItem RM)}
    {skip : Option String} (hok : itemsOk c items skip = true) {data : Data Cls}
    (h : collect (items.map (readItem as (leadText ds) (rdenKids tables ds))) = .ok data) :
    (∀ a p, (a, p) ∈ parts c → (∃ f ∈ Schema.ctor c, f.attr = a) ∧
      ∀ f ∈ Schema.ctor c, f.attr = a → some f.param ≠ skip →
        Found p as ds (normal ((lastOf data f.param).getD none))) ∧
    (∀ f ∈ Schema.ctor c, (∃ p, (f.attr, p) ∈ parts c) ∨
      (lastOf data f.param = none ∧ some f.param ≠ skip)) := by
  simp only [itemsOk, Bool.and_eq_true, List.all_eq_true, Bool.or_eq_true, List.any_eq_true,
    decide_eq_true_eq] at hok
  obtain ⟨h1, h2⟩ := hok
  refine ⟨?_, ?_⟩
  · intro a p hap
    obtain ⟨hex, hall⟩ := h1 (a, p) hap
    refine ⟨hex, ?_⟩
    intro f hf ha hsk
    rcases hall f hf with (hn | hn) | ⟨hx, hy⟩
    · exact absurd ha hn
    · exact absurd hn hsk
    · refine arg_says hs hss h ?_ ?_
      · simpa using hx
      · simpa using hy
  · intro f hf
    rcases h2 f hf with ⟨ap, hap, he⟩ | ⟨hsk, hn⟩
    · left
      exact ⟨ap.2, by rw [← he]; exact hap⟩
    · right
      refine ⟨?_, hsk⟩
      cases hl : lastOf data f.param with
      | none => rfl
      | some x =>
        obtain ⟨ri, hri, r, hr, hx⟩ := Load.collect_mem h (lastOf_mem hl)
        exact absurd (item_key hr _ hx).symm (hn ri hri)

theorem run_says {t : String} {as : Attrs} {ds : List Dom} (hs : Sub ds)
    (hss : ∀ t as xs, Dom.elem t as xs ∈ ds → Sub xs) {m : RM} {v : Val Cls}
    (h : runReader tables m t as (leadText ds) (rdenKids tables ds) = .ok v) :
    Says (.elem t as ds) v := by
  have hok := meths_ok m t
  unfold runReader at h
  have htab : tables.rm m t = rm m t := rfl
  rw [htab] at h
  cases hm : rm m t with
  | bad e => rw [hm] at h; cases h
  | node c items =>
    rw [hm] at h hok
    simp only at h
    split at h
    · cases h
    · rename_i data hd
      obtain ⟨h1, h2⟩ := items_parts hs hss hok hd
      refine obj_says h ?_ ?_
      · intro a p hap
        exact ⟨(h1 a p hap).1, fun f hf ha => (h1 a p hap).2 f hf ha (by simp)⟩
      · intro f hf
        rcases h2 f hf with h | h
        · exact .inl h
        · exact .inr h.1
  | ref cls dest =>
    rw [hm] at h hok
    simp only at h
    split at h
    · cases h
    · rename_i d hd
      split at h
      · rename_i d'
        split at h
        · rename_i he
          subst he
          split at h
          · rename_i r hr
            cases h
            obtain ⟨h1, h2⟩ := construct_text hr
            simp only [methOk, h2 ""] at hok
            split at hok
            · rename_i m' hm'
              rw [of_decide_eq_true hok] at hm'
              exact .ref h1.symm hd hm'
            · cases hok
          · cases h
        · cases h
      · split at h
        · cases h
        · rename_i dm hdm
          split at h
          · rename_i r hr
            cases h
            refine .ref (construct_text hr).1.symm hd ?_
            have hcls := (xmlToEnum_ok hdm).1
            have : r.dest = dm.name := by
              unfold construct at hr
              split at hr
              · cases hr
              · simp only [baseInit, checkDest] at hr
                split at hr
                · rename_i x hx
                  cases hr
                  rw [hcls] at hx
                  simp only [Verif.Ref.destIn] at hx
                  split at hx
                  · cases hx; rfl
                  · cases hx
                · cases hr
            rw [hdm, this]
            cases dm
            simp only at hcls
            rw [hcls]
          · cases h
  | mixed c items key tags skipped =>
    rw [hm] at h hok
    simp only at h
    unfold methOk at hok
    simp only [Bool.and_eq_true, List.all_eq_true, Bool.or_eq_true, decide_eq_true_eq,
      Bool.not_eq_true', List.isEmpty_eq_false_iff] at hok
    obtain ⟨⟨⟨⟨hit, hkeys⟩, hpc⟩, hne⟩, htg⟩ := hok
    split at h
    · cases h
    · rename_i data hd
      split at h
      · cases h
      · rename_i vs hvs
        obtain ⟨h1, h2⟩ := items_parts hs hss hit hd
        refine obj_says h ?_ ?_
        · intro a p hap
          refine ⟨(h1 a p hap).1, ?_⟩
          intro f hf ha
          rw [lastOf_append]
          by_cases hk : key = f.param
          · rw [if_pos hk]
            have hp : p = .pieces (tags.map (·.1)) := by
              rcases hpc f hf with hn | hn
              · exact absurd hk.symm hn
              · rcases hn (a, p) hap with hn | hn
                · exact absurd ha.symm hn
                · exact hn
            subst hp
            simp only [Option.getD_some]
            have hl := parts_says hne htg hs hvs
            cases hlt : leadText ds with
            | some s =>
              simp only [List.cons_append, List.nil_append]
              refine .pieces ?_ ?_
              · intro s' hs'
                rw [hlt] at hs'
                cases hs'
                exact ⟨vs, rfl⟩
              · show Listed _ _ (objectsOf (some (.list (.str s :: vs))))
                rw [objects_list]
                exact hl
            | none =>
              simp only [List.nil_append]
              refine .pieces ?_ ?_
              · intro s' hs'
                rw [hlt] at hs'
                cases hs'
              · cases vs with
                | nil => exact hl
                | cons w ws =>
                  show Listed _ _ (objectsOf (some (.list (w :: ws))))
                  rw [objects_list]
                  exact hl
          · rw [if_neg hk]
            exact (h1 a p hap).2 f hf ha (by simpa using fun h => hk h.symm)
        · intro f hf
          rcases h2 f hf with h | ⟨h, hk⟩
          · exact .inl h
          · right
            rw [lastOf_append, if_neg (by simpa using fun h => hk (by rw [h]))]
            exact h

/-- Whatever a method makes of an element is what the element says. -/
theorem says_of_run : ∀ (n : Nat) (t : String) (as : Attrs) (ds : List Dom), sizeOf ds < n →
    ∀ m v, runReader tables m t as (leadText ds) (rdenKids tables ds) = .ok v →
      Says (.elem t as ds) v
  | 0, _, _, _, h => by omega
  | n + 1, t, as, ds, hn => by
    intro m v h
    have hsz : ∀ {t : String} {as : Attrs} {xs ys : List Dom}, Dom.elem t as xs ∈ ys →
        sizeOf xs < sizeOf ys := by
      intro t as xs ys hm
      have := List.sizeOf_lt_of_mem hm
      simp at this
      omega
    refine run_says ?_ ?_ h
    · intro t' as' xs hm
      exact says_of_run n t' as' xs (by have := hsz hm; omega)
    · intro t' as' xs hm t'' as'' ys hm'
      exact says_of_run n t'' as'' ys (by have := hsz hm; have := hsz hm'; omega)

theorem readWith_says {m : RM} {d : Dom} {v : Val Cls} (h : readWith tables m d = .ok v) :
    Says d v := by
  cases d with
  | text s => unfold readWith at h; rw [rden] at h; cases h
  | elem t as ds =>
    unfold readWith at h
    rw [rden_elem] at h
    exact says_of_run (sizeOf ds + 1) t as ds (by omega) m v h

end Verif.Codec.Map
