import Verif.Codec.ConnectMade
/-
Lemmas for C67: the composition with the connector.
-/
set_option linter.unusedSimpArgs false
namespace Verif.Codec.Connect
open Verif.Py Verif.Ref Verif.Codec Verif.Codec.Spec Verif.Codec.Find Verif.Codec.FindSpec
open Verif.Codec.ConnectSpec Verif.Pkg.Spec Verif.Codec.Older.Spec
open Verif.Codec.Owner (shortName)
open Verif.Codec.Constant (fields_ok)

theorem get_filter (fs : List (String × Val Cls)) (a : String) :
    dictGet (fs.filter (·.1 ≠ "connectors")) a = if a = "connectors" then none else dictGet fs a := by
  induction fs with
  | nil => simp [dictGet]
  | cons p fs ih =>
    obtain ⟨k, x⟩ := p
    rw [List.filter_cons]
    by_cases hk : k = "connectors"
    · rw [if_neg (by simpa using hk), ih]
      split
      · rfl
      · rename_i ha
        rw [dictGet, if_neg (by rw [hk]; exact fun e => ha e.symm)]
    · rw [if_pos (by simpa using hk), dictGet, dictGet, ih]
      by_cases ha : a = "connectors"
      · rw [if_pos ha, if_pos ha, if_neg (by rw [ha]; exact hk)]
      · rw [if_neg ha, if_neg ha]

theorem get_add (k : Val Cls) (c : Cls) (fs : List (String × Val Cls)) (a : String) :
    dictGet (fs.filter (·.1 ≠ "connectors") ++
      [("connectors", .list (members (.obj c fs) "connectors" ++ [k]))]) a =
    if a = "connectors" then some (.list (members (.obj c fs) "connectors" ++ [k])) else dictGet fs a := by
  rw [dictGet_append, get_filter]
  by_cases ha : a = "connectors"
  · subst ha; rfl
  · rw [if_neg ha, if_neg ha]
    cases dictGet fs a with
    | some v => rfl
    | none =>
      simp only [dictGet]
      rw [if_neg (fun e => ha e.symm)]

theorem extended_add (k : Val Cls) (c : Cls) (fs : List (String × Val Cls)) :
    Extended k (.obj c fs) (addTo k (.obj c fs)) := by
  refine ⟨rfl, ?_, fun a ha => ?_⟩
  · simp only [addTo, field, ← dictGet_lookup]
    rw [get_add, if_pos rfl]
  · simp only [addTo, field, ← dictGet_lookup]
    rw [get_add, if_neg ha]

theorem name_add (k v : Val Cls) : elemName (addTo k v) = elemName v := by
  cases v with
  | obj c fs =>
    simp only [addTo, elemName, nameOf]
    rw [get_add, if_neg (by decide)]
  | _ => rfl

theorem members_add (k : Val Cls) (c : Cls) (fs : List (String × Val Cls)) (a : String) :
    members (addTo k (.obj c fs)) a =
      if a = "connectors" then members (.obj c fs) a ++ [k] else members (.obj c fs) a := by
  by_cases ha : a = "connectors"
  · subst ha
    simp only [addTo, if_true]
    rw [members, get_add, if_pos rfl]
  · rw [if_neg ha]
    simp only [addTo]
    rw [members, get_add, if_neg ha]
    rfl

/-! ### It is well-formed -/

theorem order_last {s : List (Field Cls)} {f : Field Cls} {names : List String}
    (hf : f.attr = "connectors") (hs : ∀ g ∈ s, g.attr ≠ "connectors")
    (h : orderOk (s ++ [f]) names = true) :
    orderOk (s ++ [f]) (names.filter (· ≠ "connectors") ++ ["connectors"]) = true := by
  unfold orderOk at h ⊢
  simp only [Bool.and_eq_true, decide_eq_true_eq, List.all_eq_true] at h ⊢
  obtain ⟨h1, h2⟩ := h
  refine ⟨?_, ?_⟩
  · have h3 : names.filter (· ≠ "connectors") = (s.map (·.attr)).filter (· ∈ names) := by
      conv => lhs; rw [h1]
      rw [List.filter_filter, List.map_append, List.filter_append]
      have : ([f].map (·.attr)).filter (fun a => decide (a ≠ "connectors") && decide (a ∈ names)) = [] := by
        simp [hf]
      rw [this, List.append_nil]
      refine List.filter_congr fun a ha => ?_
      obtain ⟨g, hg, rfl⟩ := List.mem_map.1 ha
      simp [hs g hg]
    rw [List.map_append, List.filter_append]
    congr 1
    · rw [h3]
      refine List.filter_congr fun a ha => ?_
      obtain ⟨g, hg, rfl⟩ := List.mem_map.1 ha
      rw [decide_eq_decide]
      simp only [List.mem_append, List.mem_filter, decide_eq_true_eq, List.mem_singleton, hs g hg, or_false]
      exact ⟨fun h => ⟨ha, h⟩, fun h => h.2⟩
    · simp [hf]
  · intro g hg
    have h3 := h2 g hg
    rcases List.mem_append.1 hg with hg | hg
    · have := hs g hg
      simp only [Bool.or_eq_true, decide_eq_true_eq] at h3 ⊢
      refine h3.imp_right fun h3 => ?_
      simp [h3, this]
    · rw [List.mem_singleton.1 hg, hf]
      simp

theorem fields_filter {s : List (Field Cls)} {fs : List (String × Val Cls)} {q : String × Val Cls → Bool}
    (h : hasFields tables s fs = true) : hasFields tables s (fs.filter q) = true := by
  induction fs with
  | nil => exact h
  | cons p fs ih =>
    obtain ⟨k, x⟩ := p
    rw [hasFields_cons, Bool.and_eq_true] at h
    rw [List.filter_cons]
    split
    · rw [hasFields_cons, ih h.2, h.1]
      rfl
    · exact ih h.2

theorem fields_append {s : List (Field Cls)} {fs gs : List (String × Val Cls)}
    (h : hasFields tables s fs = true) (hg : hasFields tables s gs = true) :
    hasFields tables s (fs ++ gs) = true := by
  induction fs with
  | nil => exact hg
  | cons p fs ih =>
    obtain ⟨k, x⟩ := p
    rw [hasFields_cons, Bool.and_eq_true] at h
    rw [List.cons_append, hasFields_cons, ih h.2, h.1]
    rfl

theorem plain_filter {fs : List (String × Val Cls)} {q : String × Val Cls → Bool}
    (h : plainFields xmlAttrs fs = true) : plainFields xmlAttrs (fs.filter q) = true := by
  induction fs with
  | nil => exact h
  | cons p fs ih =>
    obtain ⟨k, x⟩ := p
    simp only [plainFields, Bool.and_eq_true] at h
    rw [List.filter_cons]
    split
    · simp only [plainFields, Bool.and_eq_true]
      exact ⟨h.1, ih h.2⟩
    · exact ih h.2

theorem plain_fields_append {fs gs : List (String × Val Cls)}
    (h : plainFields xmlAttrs fs = true) (hg : plainFields xmlAttrs gs = true) :
    plainFields xmlAttrs (fs ++ gs) = true := by
  induction fs with
  | nil => exact hg
  | cons p fs ih =>
    obtain ⟨k, x⟩ := p
    simp only [plainFields, Bool.and_eq_true] at h
    rw [List.cons_append]
    simp only [plainFields, Bool.and_eq_true]
    exact ⟨h.1, ih h.2⟩

theorem plain_list {l : List (Val Cls)} (h : ∀ v ∈ l, plainVal xmlAttrs v = true) :
    plainList xmlAttrs l = true := by
  induction l with
  | nil => rfl
  | cons v l ih =>
    rw [plainList, h v (by simp), ih fun w hw => h w (by simp [hw])]
    rfl

def connectorsField : Field Cls := Schema.list "connectors"
  [.cls .AssemblySwConnector, .cls .DelegationSwConnector, .cls .PassThroughSwConnector]

theorem add_wf {k : Val Cls} {fs : List (String × Val Cls)}
    (hv : WellFormed .CompositionSwComponentType (.obj .CompositionSwComponentType fs)) {c : Cls}
    (hc : c ∈ [Cls.AssemblySwConnector, .DelegationSwConnector, .PassThroughSwConnector])
    (hk : WellFormed c k) :
    WellFormed .CompositionSwComponentType (addTo k (.obj .CompositionSwComponentType fs)) := by
  have hmem := fun x hx => member_wf hv (a := "connectors") (f := connectorsField) (by rfl) rfl (x := x) hx
  obtain ⟨h1, h2⟩ := hv
  simp only [hasS, Bool.and_eq_true] at h1
  refine obj_wf ?_ (fields_append (fields_filter h1.2)
    (fields_ok (f := connectorsField) (by rfl) ?_ rfl)) (plain_fields_append (plain_filter h2) ?_)
  · have hs : ∃ s, tables.schema .CompositionSwComponentType = s ++ [connectorsField] ∧
        ∀ g ∈ s, g.attr ≠ "connectors" := by
      refine ⟨(tables.schema .CompositionSwComponentType).dropLast, by rfl, by decide +kernel⟩
    obtain ⟨s, hs1, hs2⟩ := hs
    have := h1.1.2
    rw [hs1] at this ⊢
    have := order_last (f := connectorsField) rfl hs2 this
    rw [List.map_append]
    have e : (fs.filter (·.1 ≠ "connectors")).map (·.1) = (fs.map (·.1)).filter (· ≠ "connectors") := by
      rw [List.filter_map]; rfl
    rw [e]
    exact this
  · unfold hasField connectorsField
    simp only [Schema.list, Bool.and_eq_true]
    refine ⟨by simp [maxOk], (hasList_iff _ _ _).2 fun x hx => ?_⟩
    rcases List.mem_append.1 hx with hx | hx
    · exact (hmem x hx).1
    · rw [List.mem_singleton.1 hx]
      exact ⟨.cls c, by simpa using hc, hk.1⟩
  · simp only [plainFields, plainVal, Bool.and_true, Bool.or_true]
    refine plain_list ?_
    · intro x hx
      rcases List.mem_append.1 hx with hx | hx
      · exact (hmem x hx).2
      · rw [List.mem_singleton.1 hx]; exact hk.2

/-! ### Areas -/

theorem areas_inst (c : Cls) (i : Swc.InstRef) (h : c ≠ .RunnableEntity) : areasNamed (instObj c i) = true := by
  unfold instObj refAttr
  cases i.component <;> cases i.port <;>
    simp [areasNamed, areasNamedFields, h]

theorem areas_connector (k : Swc.Connector) : areasNamed (connectorObj k) = true := by
  unfold connectorObj
  cases k.joint with
  | assembly p r => simp [areasNamed, areasNamedFields, areas_inst]
  | delegation i o =>
    have : innerClass i ≠ .RunnableEntity := by unfold innerClass; split <;> simp
    cases o <;> simp [areasNamed, areasNamedFields, areas_inst _ _ this, refAttr]
  | passThrough p r => cases p <;> cases r <;> simp [areasNamed, areasNamedFields, refAttr]

theorem areas_get {c : Cls} (hc : c ≠ .RunnableEntity) {fs : List (String × Val Cls)}
    (h : areasNamedFields c fs = true) {a : String} {v : Val Cls} (ha : dictGet fs a = some v) :
    areasNamed v = true := by
  induction fs with
  | nil => cases ha
  | cons p fs ih =>
    obtain ⟨k, x⟩ := p
    simp only [areasNamedFields, hc, false_and, if_false, Bool.and_eq_true] at h
    simp only [dictGet] at ha
    split at ha
    · cases ha; exact h.1
    · exact ih h.2 ha

theorem areas_list_append (a b : List (Val Cls)) :
    areasNamedList (a ++ b) = (areasNamedList a && areasNamedList b) := by
  induction a with
  | nil => simp [areasNamedList]
  | cons v a ih => rw [List.cons_append, areasNamedList, areasNamedList, ih, Bool.and_assoc]

theorem areas_add (k : Swc.Connector) (fs : List (String × Val Cls)) :
    areasNamed (.obj .CompositionSwComponentType fs) = true →
    areasNamed (addTo (connectorObj k) (.obj .CompositionSwComponentType fs)) = true := by
  simp only [areasNamed, addTo]
  intro h
  have hl : areasNamedList (members (.obj .CompositionSwComponentType fs) "connectors") = true := by
    simp only [members]
    split
    · next l hl =>
      have := areas_get (by simp) h hl
      simpa [areasNamed] using this
    · rfl
  have key : ∀ gs : List (String × Val Cls), areasNamedFields .CompositionSwComponentType gs = true →
      areasNamedFields .CompositionSwComponentType (gs.filter (·.1 ≠ "connectors") ++
        [("connectors", .list (members (.obj .CompositionSwComponentType fs) "connectors" ++
          [connectorObj k]))]) = true := by
    intro gs hg
    induction gs with
    | nil =>
      simp [areasNamedFields, areasNamed, areas_list_append, hl, areasNamedList, areas_connector]
    | cons p gs ih =>
      obtain ⟨a, x⟩ := p
      simp only [areasNamedFields, Bool.and_eq_true] at hg
      rw [List.filter_cons]
      split
      · rw [List.cons_append, areasNamedFields, ih hg.2, hg.1]
        rfl
      · exact ih hg.2
  exact key fs h

/-! ### Names -/

theorem fresh {way : List String} {fs : List (String × Val Cls)} {n : String} (hn : '/' ∉ n.toList)
    (h : (compOf way (.obj .CompositionSwComponentType fs)).find n.toList = none) :
    n ∉ (members (.obj .CompositionSwComponentType fs) "components").map shortName ∧
    n ∉ (members (.obj .CompositionSwComponentType fs) "connectors").map shortName ∧
    n ∉ (portsOf (.obj .CompositionSwComponentType fs)).map (·.name) := by
  unfold Swc.Composition.find Swc.findIn at h
  rw [partL_no_sep '/' _ hn] at h
  simp only [String.ofList_toList] at h
  split at h
  · cases h
  · rename_i hi
    simp only [Option.map_eq_none_iff, List.find?_eq_none, decide_eq_true_eq] at h
    simp only [Swc.Composition.inner, compOf, List.mem_append, not_or, List.map_map] at hi
    refine ⟨fun hm => hi.1 ?_, fun hm => hi.2 ?_, fun hm => ?_⟩
    · simpa [protoOf] using hm
    · simpa [oldConnector] using hm
    · obtain ⟨p, hp, rfl⟩ := List.mem_map.1 hm
      exact h p hp rfl

theorem nodup_add {way : List String} {fs : List (String × Val Cls)} {k : Val Cls} {n : String}
    (hv : WellFormed .CompositionSwComponentType (.obj .CompositionSwComponentType fs))
    (hk : elemName k = some n) (hn : '/' ∉ n.toList)
    (h : (compOf way (.obj .CompositionSwComponentType fs)).find n.toList = none)
    (hd : ((findable (.obj .CompositionSwComponentType fs)).map elemName).Nodup) :
    ((findable (addTo k (.obj .CompositionSwComponentType fs))).map elemName).Nodup := by
  obtain ⟨h1, h2, h3⟩ := fresh hn h
  have n1 : ∀ a, a = "components" ∨ a = "connectors" →
      n ∉ (members (.obj .CompositionSwComponentType fs) a).map shortName →
      some n ∉ (members (.obj .CompositionSwComponentType fs) a).map elemName := by
    intro a ha hna hm
    obtain ⟨x, hx, he⟩ := List.mem_map.1 hm
    obtain ⟨m, e1, e2, -, -⟩ := part_there hv ha hx
    rw [e1] at he
    cases he
    exact hna (List.mem_map.2 ⟨x, hx, e2⟩)
  have n2 : some n ∉ (members (.obj .CompositionSwComponentType fs) "ports").map elemName := by
    intro hm
    obtain ⟨x, hx, he⟩ := List.mem_map.1 hm
    obtain ⟨p, hp⟩ := port_there (by simp) hv hx
    rw [hp.name] at he
    cases he
    exact h3 (List.mem_map.2 ⟨p, List.mem_filterMap.2 ⟨x, hx, hp.port⟩, rfl⟩)
  have f0 : findable (.obj .CompositionSwComponentType fs) =
      members (.obj .CompositionSwComponentType fs) "components" ++
      (members (.obj .CompositionSwComponentType fs) "connectors" ++
      members (.obj .CompositionSwComponentType fs) "ports") := by
    simp [findable, searched]
  have f1 : findable (addTo k (.obj .CompositionSwComponentType fs)) =
      members (.obj .CompositionSwComponentType fs) "components" ++
      ((members (.obj .CompositionSwComponentType fs) "connectors" ++ [k]) ++
      members (.obj .CompositionSwComponentType fs) "ports") := by
    have e : findable (addTo k (.obj .CompositionSwComponentType fs)) =
        members (addTo k (.obj .CompositionSwComponentType fs)) "components" ++
        (members (addTo k (.obj .CompositionSwComponentType fs)) "connectors" ++
        members (addTo k (.obj .CompositionSwComponentType fs)) "ports") := by
      conv => lhs; rw [addTo, findable]
      simp [searched, addTo]
    rw [e, members_add, members_add, members_add, if_neg (by decide), if_pos rfl, if_neg (by decide)]
  have n3 := n1 "components" (.inl rfl) h1
  have n4 := n1 "connectors" (.inr rfl) h2
  rw [f0] at hd
  rw [f1]
  simp only [List.map_append, List.map_cons, List.map_nil, hk] at hd ⊢
  generalize (members (.obj .CompositionSwComponentType fs) "components").map elemName = A at *
  generalize (members (.obj .CompositionSwComponentType fs) "connectors").map elemName = B at *
  generalize (members (.obj .CompositionSwComponentType fs) "ports").map elemName = C at *
  simp only [List.nodup_append, List.mem_append, List.mem_singleton, List.nodup_cons, List.not_mem_nil,
    not_false_eq_true, List.nodup_nil, and_true, true_and] at hd ⊢
  grind

end Verif.Codec.Connect
