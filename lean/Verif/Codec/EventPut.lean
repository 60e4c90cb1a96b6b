import Verif.Codec.EventMade
import Verif.Props.Names
/-
The component with the event: it is well-formed, and what has changed in it.
-/
set_option linter.unusedSimpArgs false
namespace Verif.Codec.Event
open Verif.Py Verif.Ref Verif.Codec Verif.Codec.Spec Verif.Codec.Find Verif.Codec.FindSpec Verif.Pkg.Spec
open Verif.Codec.Connect (refAttr field_attr dictGet_lookup fields_filter fields_append plain_filter
  plain_fields_append plain_list member_wf of_cls plain_get areas_get areas_list_append obj_wf)
open Verif.Codec.ConnectSpec Verif.Codec.EventSpec Verif.Codec.Older.Spec
open Verif.Codec.Owner (shortName)
open Verif.Codec.Constant (fields_ok)
open Verif.Names (Name Plain)

/-! ### Another value for an attribute -/

/-- The attributes with that value for `a`, if it is there. -/
def exchange (a : String) (x : Val Cls) (fs : List (String × Val Cls)) : List (String × Val Cls) :=
  fs.map fun f => if f.1 = a then (f.1, x) else f

theorem ex_keys (a : String) (x : Val Cls) (fs : List (String × Val Cls)) :
    (exchange a x fs).map (·.1) = fs.map (·.1) := by
  unfold exchange
  rw [List.map_map]
  exact List.map_congr_left fun f _ => by simp only [Function.comp_apply]; split <;> rfl

theorem ex_get (a : String) (x : Val Cls) (fs : List (String × Val Cls)) (k : String) :
    dictGet (exchange a x fs) k = if k = a then (dictGet fs a).map (fun _ => x) else dictGet fs k := by
  induction fs with
  | nil => simp [exchange, dictGet]
  | cons p fs ih =>
    obtain ⟨j, y⟩ := p
    have e : exchange a x ((j, y) :: fs) = (if j = a then (j, x) else (j, y)) :: exchange a x fs := rfl
    rw [e]
    by_cases hj : j = a
    · subst hj
      rw [if_pos rfl, dictGet, dictGet, ih]
      by_cases hk : k = j
      · subst hk; simp
      · rw [if_neg (fun e => hk e.symm), if_neg hk, if_neg hk, dictGet, if_neg (fun e => hk e.symm)]
    · rw [if_neg hj, dictGet, ih, dictGet, if_neg hj, dictGet]
      by_cases hk : k = a
      · subst hk; simp [hj]
      · simp [hk]

theorem ex_has {s : List (Field Cls)} {a : String} {x : Val Cls} {f : Field Cls}
    (hf : fieldOf s a = some f) (hx : hasField tables f x = true) {fs : List (String × Val Cls)}
    (h : hasFields tables s fs = true) : hasFields tables s (exchange a x fs) = true := by
  induction fs with
  | nil => exact h
  | cons p fs ih =>
    obtain ⟨j, y⟩ := p
    have e : exchange a x ((j, y) :: fs) = (if j = a then (j, x) else (j, y)) :: exchange a x fs := rfl
    rw [e]
    rw [hasFields_cons, Bool.and_eq_true] at h
    by_cases hj : j = a
    · subst hj
      rw [if_pos rfl, hasFields_cons, ih h.2]
      simp [hf, hx]
    · rw [if_neg hj, hasFields_cons, ih h.2, h.1]
      rfl

theorem ex_plain {a : String} {x : Val Cls} (ha : a ∉ xmlAttrs) (hx : plainVal xmlAttrs x = true)
    {fs : List (String × Val Cls)} (h : plainFields xmlAttrs fs = true) :
    plainFields xmlAttrs (exchange a x fs) = true := by
  induction fs with
  | nil => exact h
  | cons p fs ih =>
    obtain ⟨j, y⟩ := p
    have e : exchange a x ((j, y) :: fs) = (if j = a then (j, x) else (j, y)) :: exchange a x fs := rfl
    rw [e]
    simp only [plainFields, Bool.and_eq_true] at h
    by_cases hj : j = a
    · subst hj
      rw [if_pos rfl]
      simp only [plainFields, Bool.and_eq_true]
      exact ⟨⟨hx, by simp [ha]⟩, ih h.2⟩
    · rw [if_neg hj]
      simp only [plainFields, Bool.and_eq_true]
      exact ⟨h.1, ih h.2⟩

theorem exchange_wf {c : Cls} {a : String} {x : Val Cls} (hx : FieldOk c (a, x))
    {fs : List (String × Val Cls)} (h : WellFormed c (.obj c fs)) :
    WellFormed c (.obj c (exchange a x fs)) := by
  obtain ⟨h1, h2⟩ := h
  obtain ⟨⟨f, h3, h4⟩, h5, h6⟩ := hx
  simp only [hasS, Bool.and_eq_true] at h1
  exact obj_wf (by rw [ex_keys]; exact h1.1.2) (ex_has h3 h4 h1.2) (ex_plain h6 h5 h2)

theorem exchange_areas {c : Cls} {a : String} {x : Val Cls}
    (ha : a ≠ "can_enter_leave" ∧ a ≠ "runs_insides") (hx : areasNamed x = true)
    {fs : List (String × Val Cls)} (h : areasNamedFields c fs = true) :
    areasNamedFields c (exchange a x fs) = true := by
  induction fs with
  | nil => exact h
  | cons p fs ih =>
    obtain ⟨j, y⟩ := p
    have e : exchange a x ((j, y) :: fs) = (if j = a then (j, x) else (j, y)) :: exchange a x fs := rfl
    rw [e]
    simp only [areasNamedFields, Bool.and_eq_true] at h
    by_cases hj : j = a
    · subst hj
      rw [if_pos rfl]
      simp only [areasNamedFields, Bool.and_eq_true]
      exact ⟨by simp [ha, hx], ih h.2⟩
    · rw [if_neg hj]
      simp only [areasNamedFields, Bool.and_eq_true]
      exact ⟨h.1, ih h.2⟩

/-! ### Another name -/

theorem setName_obj (n : Name) (c : Cls) (fs : List (String × Val Cls)) :
    setName n (.obj c fs) = .obj c (exchange "name" (.str (String.ofList n)) fs) := rfl

theorem setName_wf {c : Cls} (hc : hasName c = true) {x : Val Cls} (h : WellFormed c x)
    (hx : classOf x = some c) {n : Name} (hn : n ≠ []) (hp : plainText (String.ofList n) = true) :
    WellFormed c (setName n x) := by
  cases x with
  | obj c' fs =>
    simp only [classOf, Option.some.injEq] at hx
    subst hx
    rw [setName_obj]
    refine exchange_wf (name_field_ok hc ?_ hp) h
    intro e
    apply hn
    have := congrArg String.toList e
    simpa using this
  | _ => simp [classOf] at hx

theorem attrs_nodup (c : Cls) : ((tables.schema c).map (·.attr)).Nodup := by
  have h : ∀ n < 186, ((tables.schema (Cls.ofNat n)).map (·.attr)).Nodup := by decide +kernel
  have := h c.ctorIdx (by cases c <;> decide)
  rwa [Cls.ofNat_ctorIdx] at this

theorem keys_nodup {c : Cls} {fs : List (String × Val Cls)} (h : WellFormed c (.obj c fs)) :
    (fs.map (·.1)).Nodup := by
  obtain ⟨h1, -⟩ := h
  simp only [hasS, Bool.and_eq_true] at h1
  have := h1.1.2
  unfold orderOk at this
  simp only [Bool.and_eq_true, decide_eq_true_eq] at this
  rw [this.1]
  exact (attrs_nodup c).filter _

/-- An object that gets the name it has. -/
theorem setName_self {c : Cls} {x : Val Cls} (h : WellFormed c x) (hx : classOf x = some c)
    (hn : Named x) : setName (shortName x).toList x = x := by
  cases x with
  | obj c' fs =>
    simp only [classOf, Option.some.injEq] at hx
    subst hx
    have hnm := hn.name
    generalize shortName (.obj c' fs) = m at hnm ⊢
    rw [setName_obj]
    congr 1
    unfold exchange
    conv => rhs; rw [← List.map_id fs]
    refine List.map_congr_left fun f hf => ?_
    obtain ⟨k, y⟩ := f
    simp only [id]
    split
    · rename_i hk
      subst hk
      have := dictGet_of_nodup (keys_nodup h) hf
      simp only [elemName, nameOf, this] at hnm
      cases y <;> simp_all
    · rfl
  | _ => simp [classOf] at hx

theorem setName_renamed {x : Val Cls} (hn : Named x) (n : Name) :
    Renamed (String.ofList n) x (setName n x) := by
  cases x with
  | obj c fs =>
    rw [setName_obj]
    refine ⟨rfl, ?_, fun a ha => ?_⟩
    · have := hn.name
      simp only [elemName, nameOf] at this ⊢
      rw [ex_get, if_pos rfl]
      cases hd : dictGet fs "name" with
      | none => rw [hd] at this; simp at this
      | some y => rfl
    · simp only [field, ← dictGet_lookup]
      rw [ex_get, if_neg ha]
  | _ => have := hn.name; simp [elemName] at this

theorem setName_areas (n : Name) {x : Val Cls} (h : areasNamed x = true) :
    areasNamed (setName n x) = true := by
  cases x with
  | obj c fs =>
    rw [setName_obj]
    simp only [areasNamed] at h ⊢
    exact exchange_areas (by decide) rfl h
  | _ => exact h

/-! ### The events of the behaviour -/

theorem get_filter (q : String → Bool) (fs : List (String × Val Cls)) (a : String) :
    dictGet (fs.filter (fun p => q p.1)) a = if q a then dictGet fs a else none := by
  induction fs with
  | nil => simp [dictGet]
  | cons p fs ih =>
    obtain ⟨k, x⟩ := p
    rw [List.filter_cons]
    by_cases hk : q k = true
    · rw [if_pos hk, dictGet, dictGet, ih]
      by_cases ha : k = a
      · subst ha; simp [hk]
      · simp [ha]
    · rw [if_neg hk, ih, dictGet]
      by_cases ha : k = a
      · subst ha; simp [hk]
      · simp [ha]

/-- The attributes of the behaviour with these events. -/
theorem put_get (l : List (Val Cls)) (fs : List (String × Val Cls)) (a : String) :
    dictGet (fs.filter (·.1 ∉ ["events", "runnables", "port_api_options"]) ++
      [("events", .list l)] ++ fs.filter (·.1 ∈ ["runnables", "port_api_options"])) a =
    if a = "events" then some (.list l) else dictGet fs a := by
  have h1 := get_filter (fun a => decide (a ∉ ["events", "runnables", "port_api_options"])) fs a
  have h2 := get_filter (fun a => decide (a ∈ ["runnables", "port_api_options"])) fs a
  rw [dictGet_append, dictGet_append, h1, h2]
  by_cases ha : a = "events"
  · subst ha; rfl
  · by_cases hb : a ∈ ["runnables", "port_api_options"]
    · have : a ∈ ["events", "runnables", "port_api_options"] := List.mem_cons_of_mem _ hb
      have hc : "events" ≠ a := fun e => ha e.symm
      simp only [this, hb, not_true_eq_false, decide_false, decide_true, if_true, if_neg ha, dictGet,
        if_neg hc, Bool.false_eq_true, if_false]
    · have : a ∉ ["events", "runnables", "port_api_options"] := by
        intro hm
        rcases List.mem_cons.1 hm with hm | hm
        · exact ha hm
        · exact hb hm
      have hc : "events" ≠ a := fun e => ha e.symm
      simp only [this, hb, not_false_eq_true, decide_false, decide_true, if_true, if_neg ha, dictGet,
        if_neg hc, Bool.false_eq_true, if_false]
      cases dictGet fs a <;> rfl

theorem put_order {s : List (Field Cls)} {A B : List String} {e : String}
    (hs : s.map (·.attr) = A ++ e :: B) (hn : (A ++ e :: B).Nodup) {names : List String}
    (h : orderOk s names = true) :
    orderOk s (names.filter (· ∉ e :: B) ++ [e] ++ names.filter (· ∈ B)) = true := by
  unfold orderOk at h ⊢
  simp only [Bool.and_eq_true, decide_eq_true_eq, List.all_eq_true] at h ⊢
  obtain ⟨h1, h2⟩ := h
  rw [hs] at h1 ⊢
  obtain ⟨n1, n2, n3⟩ := List.nodup_append.1 hn
  obtain ⟨n4, n5⟩ := List.nodup_cons.1 n2
  have k1 : names.filter (· ∉ e :: B) = A.filter (· ∈ names) := by
    conv => lhs; rw [h1]
    rw [List.filter_filter, List.filter_append]
    have : (e :: B).filter (fun a => decide (a ∉ e :: B) && decide (a ∈ names)) = [] := by
      rw [List.filter_eq_nil_iff]
      intro a ha
      simp [ha]
    rw [this, List.append_nil]
    refine List.filter_congr fun a ha => ?_
    have : a ∉ e :: B := fun hm => n3 a ha a hm rfl
    simp [this]
  have k2 : names.filter (· ∈ B) = B.filter (· ∈ names) := by
    conv => lhs; rw [h1]
    rw [List.filter_filter, List.filter_append]
    have : A.filter (fun a => decide (a ∈ B) && decide (a ∈ names)) = [] := by
      rw [List.filter_eq_nil_iff]
      intro a ha
      have : a ∉ B := fun hm => n3 a ha a (by simp [hm]) rfl
      simp [this]
    rw [this, List.nil_append, List.filter_cons, if_neg (by simp [n4])]
    refine List.filter_congr fun a ha => ?_
    simp [ha]
  have hmem : ∀ a, a ∈ names.filter (· ∉ e :: B) ++ [e] ++ names.filter (· ∈ B) ↔ a ∈ names ∨ a = e := by
    intro a
    simp only [List.mem_append, List.mem_filter, decide_eq_true_eq, List.mem_cons, List.not_mem_nil, or_false,
      not_or]
    by_cases h3 : a = e
    · simp [h3]
    · by_cases h4 : a ∈ B <;> simp [h3, h4]
  refine ⟨?_, fun g hg => ?_⟩
  · rw [List.filter_append, List.filter_cons, if_pos (by rw [decide_eq_true_eq, hmem]; exact .inr rfl)]
    conv => lhs; rw [k1, k2]
    rw [List.append_assoc]
    congr 1
    · refine List.filter_congr fun a ha => ?_
      rw [decide_eq_decide, hmem]
      have : a ≠ e := fun hm => n3 a ha e (by simp) hm
      simp [this]
    · rw [List.singleton_append]
      congr 1
      refine List.filter_congr fun a ha => ?_
      rw [decide_eq_decide, hmem]
      have : a ≠ e := fun hm => n4 (hm ▸ ha)
      simp [this]
  · have := h2 g hg
    simp only [Bool.or_eq_true, decide_eq_true_eq] at this ⊢
    rw [hmem]
    exact this.imp_right .inl

def eventsField : Field Cls :=
  (fieldOf (tables.schema .SwcInternalBehavior) "events").getD (Schema.list "events" [])

theorem events_shape : fieldOf (tables.schema .SwcInternalBehavior) "events" = some eventsField ∧
    eventsField.shape = .many none ∧ ∀ c ∈ [Cls.BackgroundEvent, .DataReceiveErrorEvent, .DataReceivedEvent,
      .InitEvent, .OperationInvokedEvent, .SwcModeManagerErrorEvent, .SwcModeSwitchEvent, .TimingEvent],
      STy.cls c ∈ eventsField.alts :=
  ⟨rfl, rfl, by decide +kernel⟩

/-- An entry of the list of events. -/
def EventOk (x : Val Cls) : Prop :=
  (∃ t ∈ eventsField.alts, hasS tables x t = true) ∧ plainVal xmlAttrs x = true

theorem put_wf {l : List (Val Cls)} (hl : l ≠ []) (hx : ∀ x ∈ l, EventOk x)
    {fs : List (String × Val Cls)} (h : WellFormed .SwcInternalBehavior (.obj .SwcInternalBehavior fs)) :
    WellFormed .SwcInternalBehavior (putEvents l (.obj .SwcInternalBehavior fs)) := by
  obtain ⟨h1, h2⟩ := h
  simp only [hasS, Bool.and_eq_true] at h1
  obtain ⟨e1, e2, -⟩ := events_shape
  refine obj_wf ?_ (fields_append (fields_append (fields_filter h1.2) (fields_ok e1 ?_ rfl))
    (fields_filter h1.2)) (plain_fields_append (plain_fields_append (plain_filter h2) ?_) (plain_filter h2))
  · have hs : (tables.schema .SwcInternalBehavior).map (·.attr) =
        ((tables.schema .SwcInternalBehavior).map (·.attr)).take
          (((tables.schema .SwcInternalBehavior).map (·.attr)).length - 3) ++
          "events" :: ["runnables", "port_api_options"] := by decide +kernel
    have := put_order hs (by rw [← hs]; exact attrs_nodup _) h1.1.2
    simp only [List.map_append, List.map_cons, List.map_nil]
    have k : ∀ q : String → Bool, (fs.filter (fun p => q p.1)).map (·.1) = (fs.map (·.1)).filter q := by
      intro q
      rw [List.filter_map]; rfl
    have k1 := k fun a => decide (a ∉ ["events", "runnables", "port_api_options"])
    have k2 := k fun a => decide (a ∈ ["runnables", "port_api_options"])
    rw [k1, k2]
    exact this
  · unfold hasField
    rw [e2]
    simp only [Bool.and_eq_true]
    exact ⟨by cases l <;> simp_all [maxOk], (hasList_iff _ _ _).2 fun x h => (hx x h).1⟩
  · simp only [plainFields, plainVal, Bool.and_true, Bool.or_true, Bool.and_eq_true]
    exact plain_list fun x h => (hx x h).2

theorem put_areas {l : List (Val Cls)} (hl : areasNamedList l = true) {fs : List (String × Val Cls)}
    (h : areasNamed (.obj .SwcInternalBehavior fs) = true) :
    areasNamed (putEvents l (.obj .SwcInternalBehavior fs)) = true := by
  have app : ∀ {c : Cls} {a b : List (String × Val Cls)}, areasNamedFields c a = true →
      areasNamedFields c b = true → areasNamedFields c (a ++ b) = true := by
    intro c a b ha hb
    induction a with
    | nil => exact hb
    | cons p a ih =>
      simp only [areasNamedFields, Bool.and_eq_true, List.cons_append] at ha ⊢
      exact ⟨ha.1, ih ha.2⟩
  have fil : ∀ {c : Cls} {a : List (String × Val Cls)} {q}, areasNamedFields c a = true →
      areasNamedFields c (a.filter q) = true := by
    intro c a q ha
    induction a with
    | nil => exact ha
    | cons p a ih =>
      simp only [areasNamedFields, Bool.and_eq_true] at ha
      rw [List.filter_cons]
      split
      · simp only [areasNamedFields, Bool.and_eq_true]
        exact ⟨ha.1, ih ha.2⟩
      · exact ih ha.2
  simp only [areasNamed, putEvents] at h ⊢
  exact app (app (fil h) (by simp [areasNamedFields, areasNamed, hl])) (fil h)

/-! ### The component -/

theorem setBehavior_obj (b : Val Cls) (c : Cls) (fs : List (String × Val Cls)) :
    setBehavior b (.obj c fs) = .obj c (exchange "internal_behavior" b fs) := rfl

theorem setBehavior_name (b v : Val Cls) : elemName (setBehavior b v) = elemName v := by
  cases v with
  | obj c fs =>
    rw [setBehavior_obj]
    simp only [elemName, nameOf]
    rw [ex_get, if_neg (by decide)]
  | _ => rfl

theorem behavior_field : fieldOf (tables.schema .ApplicationSoftwareComponentType) "internal_behavior" =
    some (Schema.opt "internal_behavior" [.cls .SwcInternalBehavior]) := rfl

theorem behavior_wf {fs : List (String × Val Cls)} {b : Val Cls}
    (h : WellFormed .ApplicationSoftwareComponentType (.obj .ApplicationSoftwareComponentType fs))
    (hb : field (.obj .ApplicationSoftwareComponentType fs) "internal_behavior" = some b) :
    ∃ gs, b = .obj .SwcInternalBehavior gs ∧
      WellFormed .SwcInternalBehavior (.obj .SwcInternalBehavior gs) := by
  obtain ⟨h1, h2⟩ := h
  simp only [field, ← dictGet_lookup] at hb
  simp only [hasS, Bool.and_eq_true] at h1
  obtain ⟨f, hf, hv⟩ := hasFields_get h1.2 hb
  rw [behavior_field] at hf
  cases hf
  refine of_cls ?_ (plain_get h2 hb)
  unfold hasField at hv
  simp only [Schema.opt] at hv
  cases b with
  | obj c gs => simpa only [List.any_cons, List.any_nil, Bool.or_false] using hv
  | _ => simp [hasS] at hv

theorem setBehavior_wf {fs : List (String × Val Cls)} {b : Val Cls}
    (h : WellFormed .ApplicationSoftwareComponentType (.obj .ApplicationSoftwareComponentType fs))
    (hb : WellFormed .SwcInternalBehavior b) :
    WellFormed .ApplicationSoftwareComponentType
      (setBehavior b (.obj .ApplicationSoftwareComponentType fs)) := by
  rw [setBehavior_obj]
  exact exchange_wf (obj_field_ok behavior_field (by decide +kernel) hb) h

theorem setBehavior_areas {b v : Val Cls} (hb : areasNamed b = true) (h : areasNamed v = true) :
    areasNamed (setBehavior b v) = true := by
  cases v with
  | obj c fs =>
    rw [setBehavior_obj]
    simp only [areasNamed] at h ⊢
    exact exchange_areas (by decide) hb h
  | _ => exact h

theorem with_events {c d : Cls} {fs gs : List (String × Val Cls)} (l : List (Val Cls))
    (hb : field (.obj c fs) "internal_behavior" = some (.obj d gs)) :
    WithEvents l (.obj c fs) (.obj d gs) (setBehavior (putEvents l (.obj d gs)) (.obj c fs))
      (putEvents l (.obj d gs)) := by
  simp only [field, ← dictGet_lookup] at hb
  refine ⟨rfl, ?_, fun a ha => ?_, rfl, ?_, fun a ha => ?_⟩
  · rw [setBehavior_obj]
    simp only [field, ← dictGet_lookup]
    rw [ex_get, if_pos rfl, hb]
    rfl
  · rw [setBehavior_obj]
    simp only [field, ← dictGet_lookup]
    rw [ex_get, if_neg ha]
  · simp only [putEvents, field, ← dictGet_lookup]
    rw [put_get, if_pos rfl]
  · simp only [putEvents, field, ← dictGet_lookup]
    rw [put_get, if_neg ha]

end Verif.Codec.Event
