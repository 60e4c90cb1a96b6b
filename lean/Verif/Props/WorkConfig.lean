import Verif.Work.ConfigSpec
import Verif.Props.WorkPath
/-
Property theorems C59: configuration files.
-/
set_option linter.unusedVariables false
set_option linter.unusedSimpArgs false

namespace Verif.Props.WorkConfig
open Verif Verif.Py Verif.Pkg Verif.Work Verif.Work.ConfigSpec

/-! ### Helpers -/

theorem performAll_append (w : CfgWs) (a b : List Cmd) :
    performAll w (a ++ b) = match performAll w a with
      | (w1, .error e) => (w1, .error e)
      | (w1, .ok ()) => performAll w1 b := by
  induction a generalizing w with
  | nil => rfl
  | cons c cs ih =>
    simp only [List.cons_append, performAll]
    cases perform w c with
    | mk w1 r => cases r with
      | error e => rfl
      | ok u => exact ih w1

theorem textsOf_map (l : List String) : textsOf (l.map .str) = .ok l := by
  induction l with
  | nil => rfl
  | cons s l ih => simp [textsOf, ih]

theorem textsOf_ok : ∀ {l : List Toml} {ss : List String}, textsOf l = .ok ss → l = ss.map .str
  | [], ss, h => by simp [textsOf] at h; subst h; rfl
  | .str s :: rest, ss, h => by
    simp only [textsOf] at h
    cases hr : textsOf rest with
    | error e => simp [hr] at h
    | ok l =>
      simp only [hr] at h
      injection h with h
      subst h
      rw [textsOf_ok hr]; rfl
  | .other :: rest, ss, h => by simp [textsOf] at h
  | .list _ :: rest, ss, h => by simp [textsOf] at h
  | .table _ :: rest, ss, h => by simp [textsOf] at h

theorem oneOrMore_iff {v : Toml} {ss : List String} : oneOrMore v = .ok ss ↔ Texts v ss := by
  constructor
  · intro h
    cases v with
    | str s => simp [oneOrMore] at h; subst h; exact .one s
    | list l => rw [textsOf_ok h]; exact .many ss
    | other => simp [oneOrMore] at h
    | table l => simp [oneOrMore] at h
  · intro h
    cases h with
    | one s => rfl
    | many l => exact textsOf_map ss

theorem packageRefs_texts {v : Toml} {ss : List String} (h : Texts v ss) : packageRefs (some v) = .ok ss := by
  cases h with
  | one s => rfl
  | many l => exact textsOf_map ss

theorem fillToml_str (b : String) : ∀ (roles : List (String × String)) (m : List (Role × String)),
    fillToml (.str b) (roles.map fun r => (r.1, .str r.2)) m = fillMap b roles m
  | [], m => rfl
  | (rn, p) :: rest, m => by
    simp only [List.map_cons, fillToml, fillMap]
    cases parseRole rn with
    | error e => rfl
    | ok r => exact fillToml_str b rest _

theorem fillToml_ok {base : Toml} : ∀ {l : List (String × Toml)} {m m' : List (Role × String)},
    fillToml base l m = .ok m' → l = [] ∨ ∃ b, base = .str b
  | [], _, _, _ => Or.inl rfl
  | (rn, rel) :: rest, m, m', h => by
    right
    simp only [fillToml] at h
    cases hp : parseRole rn with
    | error e => simp [hp] at h
    | ok r =>
      simp only [hp] at h
      cases base with
      | str b => exact ⟨b, rfl⟩
      | other => simp at h
      | list _ => simp at h
      | table _ => simp at h

theorem fillToml_texts {b : String} : ∀ {l : List (String × Toml)} {m m' : List (Role × String)},
    fillToml (.str b) l m = .ok m' → ∃ roles : List (String × String), l = roles.map fun r => (r.1, .str r.2)
  | [], _, _, _ => ⟨[], rfl⟩
  | (rn, rel) :: rest, m, m', h => by
    simp only [fillToml] at h
    cases hp : parseRole rn with
    | error e => simp [hp] at h
    | ok r =>
      simp only [hp] at h
      cases rel with
      | str p =>
        obtain ⟨roles, hr⟩ := fillToml_texts h
        exact ⟨(rn, p) :: roles, by rw [hr]; rfl⟩
      | other => simp at h
      | list _ => simp at h
      | table _ => simp at h

theorem namespace_call {e : String × Toml} {c : Cmd} (h : SaysNamespace e c) (w : CfgWs) :
    perform w c = ({ w with namespaces := (namespaceFromConfig w.namespaces e.1 e.2).1 },
      (namespaceFromConfig w.namespaces e.1 e.2).2) := by
  obtain ⟨hb, hr⟩ := h
  rename_i name tbl roles base
  simp only [perform, namespaceFromConfig, namespaceOf, Work.createNamespace, makeNamespace, hb, hr]
  cases base with
  | none =>
    simp only [Option.map_none, Option.getD_none, fillToml_str]
    cases fillMap ("/" ++ name) roles [] <;> rfl
  | some b =>
    simp only [Option.map_some, Option.getD_some, fillToml_str]
    cases fillMap b roles [] <;> rfl

theorem document_call {e : String × Toml} {c : Cmd} (h : SaysDocument e c) (w : CfgWs) :
    perform w c = ({ w with docs := (documentFromConfig w.docs e.1 e.2).1 },
      (documentFromConfig w.docs e.1 e.2).2) := by
  obtain ⟨hb, hr⟩ := h
  simp only [perform, documentFromConfig, hb, packageRefs_texts hr]

theorem classesOf_some {classes : String → Option (Nat → Bool)} : ∀ {names : List String},
    (∀ n ∈ names, ∃ c, classes n = some c) → ∃ cs, classesOf classes names = .ok cs ∧
      cs.length = names.length ∧
      ∀ x, (cs.any fun c => c x) = true ↔ ∃ n ∈ names, ∃ c, classes n = some c ∧ c x = true
  | [], _ => ⟨[], rfl, rfl, by simp⟩
  | n :: ns, h => by
    obtain ⟨c, hc⟩ := h n (by simp)
    obtain ⟨cs, h1, h2, h3⟩ := classesOf_some (names := ns) (fun m hm => h m (by simp [hm]))
    refine ⟨c :: cs, by simp [classesOf, hc, h1], by simp [h2], ?_⟩
    intro x
    rw [List.any_cons, Bool.or_eq_true, h3 x]
    constructor
    · rintro (h | ⟨m, hm, d, hd⟩)
      · exact ⟨n, by simp, c, hc, h⟩
      · exact ⟨m, by simp [hm], d, hd⟩
    · rintro ⟨m, hm, d, hd, hx⟩
      rcases List.mem_cons.1 hm with rfl | hm
      · rw [hc] at hd; injection hd with hd; subst hd; exact Or.inl hx
      · exact Or.inr ⟨m, hm, d, hd, hx⟩

theorem classesOf_ok {classes : String → Option (Nat → Bool)} : ∀ {names : List String} {cs},
    classesOf classes names = .ok cs → ∀ n ∈ names, ∃ c, classes n = some c
  | [], _, _, n, hn => by simp at hn
  | m :: ns, cs, h, n, hn => by
    simp only [classesOf] at h
    cases hm : classes m with
    | none => simp [hm] at h
    | some c =>
      simp only [hm] at h
      cases hr : classesOf classes ns with
      | error e => simp [hr] at h
      | ok l =>
        rcases List.mem_cons.1 hn with rfl | hn
        · exact ⟨c, hm⟩
        · exact classesOf_ok hr n hn

theorem mapping_call {classes : String → Option (Nat → Bool)} {e : String × Toml} {c : Cmd}
    (h : SaysMapping classes e c) (w : CfgWs) :
    perform w c = ({ w with docs := (mappingFromConfig classes w.docs e.2).1 },
      (mappingFromConfig classes w.docs e.2).2) := by
  obtain ⟨h1, h2, h3, h4, h5, h6, h7⟩ := h
  rename_i name ref tbl v names sfx accepts
  obtain ⟨cs, hc1, hc2, hc3⟩ := classesOf_some h5
  have hlen : ¬ cs.length = 0 := by rw [hc2]; intro h0; exact h4 (List.length_eq_zero_iff.1 h0)
  have hacc : accepts = fun x => cs.any fun c => c x := by
    funext x
    rw [Bool.eq_iff_iff, h6 x, hc3 x]
  have hs : suffixesOf (dictGet tbl "suffix_filters") = .ok sfx := by
    rcases h7 with ⟨a, rfl⟩ | ⟨f, a, b⟩
    · rw [a]; rfl
    · rw [a]; exact oneOrMore_iff.2 b
  simp only [perform, mappingFromConfig, h1, h2, oneOrMore_iff.2 h3, hc1, hs, if_neg hlen, hacc]

theorem load_namespaces {l : List (String × Toml)} {cs : List Cmd} (h : Each SaysNamespace l cs) :
    ∀ w, loadNamespaces w l = performAll w cs := by
  induction h with
  | nil => intro w; rfl
  | @cons e c es cs h1 h2 ih =>
    intro w
    obtain ⟨n, t⟩ := e
    simp only [performAll, loadNamespaces, namespace_call h1 w]
    cases namespaceFromConfig w.namespaces n t with
    | mk a b => cases b with
      | error e => rfl
      | ok u => exact ih _

theorem load_documents {l : List (String × Toml)} {cs : List Cmd} (h : Each SaysDocument l cs) :
    ∀ w, loadDocuments w l = performAll w cs := by
  induction h with
  | nil => intro w; rfl
  | @cons e c es cs h1 h2 ih =>
    intro w
    obtain ⟨n, t⟩ := e
    simp only [performAll, loadDocuments, document_call h1 w]
    cases documentFromConfig w.docs n t with
    | mk a b => cases b with
      | error e => rfl
      | ok u => exact ih _

theorem load_mappings {classes : String → Option (Nat → Bool)} {l : List (String × Toml)} {cs : List Cmd}
    (h : Each (SaysMapping classes) l cs) : ∀ w, loadMappings classes w l = performAll w cs := by
  induction h with
  | nil => intro w; rfl
  | @cons e c es cs h1 h2 ih =>
    intro w
    obtain ⟨n, t⟩ := e
    simp only [performAll, loadMappings, mapping_call h1 w]
    cases mappingFromConfig classes w.docs t with
    | mk a b => cases b with
      | error e => rfl
      | ok u => exact ih _

theorem load_settings {l : List (String × Toml)} {cs : List Cmd} (h : Each SaysSetting l cs) :
    ∀ w : CfgWs, ({ w with assigned := (setValues w.assigned l).1 }, (setValues w.assigned l).2) =
      performAll w cs := by
  induction h with
  | nil => intro w; rfl
  | @cons e c es cs h1 h2 ih =>
    intro w
    obtain ⟨n, t⟩ := e
    cases h1
    rename_i s
    simp only [performAll, setValues, perform]
    cases setValue w.assigned n (.str s) with
    | mk a b => cases b with
      | error e => rfl
      | ok u => exact ih { w with assigned := a }

theorem section_call {R : String × Toml → Cmd → Prop} {v : Option Toml} {cs : List Cmd}
    {f : CfgWs → List (String × Toml) → CfgWs × Except PyErr Unit}
    (hf : ∀ {l cs}, Each R l cs → ∀ w, f w l = performAll w cs) (h : Section R v cs) (w : CfgWs) :
    section? w v f = performAll w cs := by
  cases h with
  | missing => rfl
  | present e => exact hf e w

/-- The settings do not change before the last section. -/
theorem assigned_ns {l : List (String × Toml)} {cs : List Cmd} (h : Each SaysNamespace l cs) :
    ∀ w, (performAll w cs).1.assigned = w.assigned := by
  induction h with
  | nil => intro w; rfl
  | cons h1 h2 ih =>
    intro w
    cases h1
    simp only [performAll, perform]
    cases Work.createNamespace w.namespaces _ _ _ with
    | mk a b => cases b with
      | error e => rfl
      | ok u => exact ih _

theorem assigned_docs {l : List (String × Toml)} {cs : List Cmd} (h : Each SaysDocument l cs) :
    ∀ w, (performAll w cs).1.assigned = w.assigned := by
  induction h with
  | nil => intro w; rfl
  | cons h1 h2 ih =>
    intro w
    cases h1
    simp only [performAll, perform]
    cases Work.createDocument w.docs _ _ with
    | mk a b => cases b with
      | error e => rfl
      | ok u => exact ih _

theorem assigned_maps {classes : String → Option (Nat → Bool)} {l : List (String × Toml)} {cs : List Cmd}
    (h : Each (SaysMapping classes) l cs) : ∀ w, (performAll w cs).1.assigned = w.assigned := by
  induction h with
  | nil => intro w; rfl
  | cons h1 h2 ih =>
    intro w
    cases h1
    simp only [performAll, perform]
    cases Work.createMapping w.docs _ _ _ with
    | mk a b => cases b with
      | error e => rfl
      | ok u => exact ih _

theorem assigned_section {R : String × Toml → Cmd → Prop} {v : Option Toml} {cs : List Cmd}
    (hf : ∀ {l cs}, Each R l cs → ∀ w, (performAll w cs).1.assigned = w.assigned)
    (h : Section R v cs) (w : CfgWs) : (performAll w cs).1.assigned = w.assigned := by
  cases h with
  | missing => rfl
  | present e => exact hf e w

/-- C59: loading a configuration file does what the calls do that it stands for, in their order and
up to the first that raises (the method `update` of the settings not being hidden by an earlier
assignment). -/
theorem C59_calls (classes : String → Option (Nat → Bool)) (config : List (String × Toml))
    (ns docs maps sets : List Cmd) (h : Says classes config ns docs maps sets) (w : CfgWs)
    (hu : dictGet w.assigned "update" = none) :
    loadConfig classes w config = performAll w (ns ++ docs ++ maps ++ sets) := by
  have hs : ∀ w3 : CfgWs, w3.assigned = w.assigned →
      (match dictGet config "behavior" with
        | none => (w3, .ok ())
        | some t => ({ w3 with assigned := (updateSettings w3.assigned t).1 }, (updateSettings w3.assigned t).2)) =
      performAll w3 sets := by
    intro w3 h3
    have hh : dictHas w3.assigned "update" = false := by rw [h3]; simp [dictHas, hu]
    have hset := h.settings
    generalize dictGet config "behavior" = v at hset
    cases hset with
    | missing => rfl
    | present e =>
      simp only [updateSettings, hh, Bool.false_eq_true, if_false]
      exact load_settings e w3
  unfold loadConfig
  rw [section_call load_namespaces h.namespaces w, List.append_assoc, List.append_assoc, performAll_append]
  have a1 := assigned_section assigned_ns h.namespaces w
  cases h1 : performAll w ns with
  | mk w1 r1 =>
    rw [h1] at a1
    cases r1 with
    | error e => rfl
    | ok u =>
      simp only
      rw [section_call load_documents h.documents w1, performAll_append]
      have a2 := assigned_section assigned_docs h.documents w1
      cases h2 : performAll w1 docs with
      | mk w2 r2 =>
        rw [h2] at a2
        cases r2 with
        | error e => rfl
        | ok u =>
          simp only
          rw [section_call load_mappings h.mappings w2, performAll_append]
          have a3 := assigned_section assigned_maps h.mappings w2
          cases h3 : performAll w2 maps with
          | mk w3 r3 =>
            rw [h3] at a3
            cases r3 with
            | error e => rfl
            | ok u => exact hs w3 (a3.trans (a2.trans a1))

/-! ### Each section by itself -/

theorem each_mem {R : String × Toml → Cmd → Prop} {l : List (String × Toml)} {cs : List Cmd} (h : Each R l cs) :
    ∀ c ∈ cs, ∃ e ∈ l, R e c := by
  induction h with
  | nil => intro c hc; simp at hc
  | @cons e c es cs h1 h2 ih =>
    intro d hd
    rcases List.mem_cons.1 hd with rfl | hd
    · exact ⟨e, by simp, h1⟩
    · obtain ⟨e', a, b⟩ := ih d hd; exact ⟨e', by simp [a], b⟩

theorem section_mem {R : String × Toml → Cmd → Prop} {v : Option Toml} {cs : List Cmd} (h : Section R v cs) :
    ∀ c ∈ cs, ∃ e, R e c := by
  cases h with
  | missing => intro c hc; simp at hc
  | present e => intro c hc; obtain ⟨x, _, hx⟩ := each_mem e c hc; exact ⟨x, hx⟩

/-- The kinds of calls. -/
def IsNs : Cmd → Prop | .createNamespace _ _ _ => True | _ => False
def IsDoc : Cmd → Prop | .createDocument _ _ => True | _ => False
def IsMap : Cmd → Prop | .createMapping _ _ _ => True | _ => False
def IsSet : Cmd → Prop | .setValue _ _ => True | _ => False

theorem roles_ok (nss : Dict Namespace) (name : String) (pm : List (String × String)) (base : Option String)
    (h : ∀ e ∈ pm, ∃ r, parseRole e.1 = .ok r) :
    ∃ ns, Work.createNamespace nss name pm base = (dictSet nss name ns, .ok ()) ∧
      ∀ nss', Work.createNamespace nss' name pm base = (dictSet nss' name ns, .ok ()) := by
  have := ((Verif.Props.WorkPath.C28_errors nss name pm base).2.1 h).1
  unfold Work.createNamespace at this ⊢
  cases hm : makeNamespace name pm base with
  | error e => simp [hm] at this
  | ok ns => exact ⟨ns, rfl, fun _ => rfl⟩

structure NsDone (w w' : CfgWs) (cs : List Cmd) : Prop where
  docs : w'.docs = w.docs
  assigned : w'.assigned = w.assigned
  gives : (nsNames cs).Nodup → ∀ name roles base, Cmd.createNamespace name roles base ∈ cs →
    ∃ ns, dictGet w'.namespaces name = some ns ∧ makeNamespace name roles base = .ok ns
  others : ∀ name, name ∉ nsNames cs → dictGet w'.namespaces name = dictGet w.namespaces name

theorem ns_done : ∀ (cs : List Cmd) (w w' : CfgWs), (∀ c ∈ cs, IsNs c) → performAll w cs = (w', .ok ()) →
    NsDone w w' cs
  | [], w, w', _, h => by
    simp only [performAll] at h
    injection h with h _
    subst h
    exact ⟨rfl, rfl, by simp, by simp⟩
  | c :: cs, w, w', hk, h => by
    have hc := hk c (by simp)
    cases c with
    | createNamespace n roles base =>
      simp only [performAll, perform] at h
      unfold Work.createNamespace at h
      cases hm : makeNamespace n roles base with
      | error e => simp [hm] at h
      | ok ns =>
        simp only [hm] at h
        have D := ns_done cs _ w' (fun d hd => hk d (by simp [hd])) h
        refine ⟨D.docs, D.assigned, ?_, ?_⟩
        · intro hn name ro ba hmem
          have hn' : n ∉ nsNames cs ∧ (nsNames cs).Nodup := by
            simpa [nsNames] using hn
          rcases List.mem_cons.1 hmem with he | hmem
          · injection he with e1 e2 e3
            subst e1; subst e2; subst e3
            refine ⟨ns, ?_, hm⟩
            rw [D.others _ hn'.1]; simp [dictGet_set]
          · exact D.gives hn'.2 name ro ba hmem
        · intro name hne
          have : name ≠ n ∧ name ∉ nsNames cs := by simpa [nsNames] using hne
          rw [D.others name this.2, dictGet_set, if_neg (fun e => this.1 e.symm)]
    | createDocument _ _ => exact hc.elim
    | createMapping _ _ _ => exact hc.elim
    | setValue _ _ => exact hc.elim

structure DocsDone (w w' : CfgWs) (cs : List Cmd) : Prop where
  namespaces : w'.namespaces = w.namespaces
  assigned : w'.assigned = w.assigned
  docs : w'.docs.docs.map (fun d => (d.filePath, d.packageRefs)) =
    w.docs.docs.map (fun d => (d.filePath, d.packageRefs)) ++ docEntries cs
  mappings : w'.docs.mappings = w.docs.mappings

theorem docs_done : ∀ (cs : List Cmd) (w : CfgWs), (∀ c ∈ cs, IsDoc c) →
    ∃ w', performAll w cs = (w', .ok ()) ∧ DocsDone w w' cs
  | [], w, _ => ⟨w, rfl, rfl, rfl, by simp [docEntries], rfl⟩
  | c :: cs, w, hk => by
    have hc := hk c (by simp)
    cases c with
    | createDocument p rs =>
      simp only [performAll, perform, Work.createDocument]
      obtain ⟨w', h1, D⟩ := docs_done cs ⟨w.namespaces,
        { w.docs with heap := w.docs.heap.alloc .collection "",
                      docs := w.docs.docs ++ [⟨w.docs.heap.next, p, rs⟩] }, w.assigned⟩
        (fun d hd => hk d (by simp [hd]))
      refine ⟨w', h1, D.namespaces, D.assigned, ?_, D.mappings⟩
      rw [D.docs]; simp [docEntries]
    | createNamespace _ _ _ => exact hc.elim
    | createMapping _ _ _ => exact hc.elim
    | setValue _ _ => exact hc.elim

structure MapsDone (w w' : CfgWs) (cs : List Cmd) : Prop where
  namespaces : w'.namespaces = w.namespaces
  assigned : w'.assigned = w.assigned
  docs : w'.docs.docs = w.docs.docs
  mappings : w'.docs.mappings = w.docs.mappings ++ mapEntries cs

theorem maps_done : ∀ (cs : List Cmd) (w : CfgWs), (∀ c ∈ cs, IsMap c) →
    ∃ w', performAll w cs = (w', .ok ()) ∧ MapsDone w w' cs
  | [], w, _ => ⟨w, rfl, rfl, rfl, rfl, by simp [mapEntries]⟩
  | c :: cs, w, hk => by
    have hc := hk c (by simp)
    cases c with
    | createMapping r a sfx =>
      simp only [performAll, perform, Work.createMapping]
      obtain ⟨w', h1, D⟩ := maps_done cs ⟨w.namespaces,
        { w.docs with mappings := w.docs.mappings ++ [⟨r, a, sfx⟩] }, w.assigned⟩
        (fun d hd => hk d (by simp [hd]))
      refine ⟨w', h1, D.namespaces, D.assigned, D.docs, ?_⟩
      rw [D.mappings]; simp [mapEntries]
    | createNamespace _ _ _ => exact hc.elim
    | createDocument _ _ => exact hc.elim
    | setValue _ _ => exact hc.elim

structure SetsDone (w w' : CfgWs) (cs : List Cmd) : Prop where
  namespaces : w'.namespaces = w.namespaces
  docs : w'.docs = w.docs
  gives : (setNames cs).Nodup → ∀ n v, Cmd.setValue n v ∈ cs → dictGet w'.assigned n = some v
  others : ∀ n, n ∉ setNames cs → dictGet w'.assigned n = dictGet w.assigned n

theorem settings_known : ∀ n ∈ settings, n ∈ settingNames := by decide +kernel
theorem accepted_names : ∀ n ∈ settingNames ++ settingMethods, n ∈ settings ++ methods := by decide +kernel

theorem methods_no_settings : ∀ m ∈ settingMethods, m ∉ settingNames := by decide

theorem sets_done : ∀ (cs : List Cmd) (w : CfgWs), (∀ c ∈ cs, IsSet c) →
    (∀ n ∈ setNames cs, n ∈ settingNames) → dictGet w.assigned "set_value" = none →
    ∃ w', performAll w cs = (w', .ok ()) ∧ SetsDone w w' cs
  | [], w, _, _, _ => ⟨w, rfl, rfl, rfl, by simp, by simp⟩
  | c :: cs, w, hk, hn, hs => by
    have hc := hk c (by simp)
    cases c with
    | setValue n v =>
      have hnn : n ∈ settingNames := hn n (by simp [setNames])
      have e : Work.setValue w.assigned n (.str v) = (dictSet w.assigned n v, .ok ()) := by
        unfold Work.setValue
        rw [if_neg (by simp [dictHas, hs]), if_pos (List.mem_append_left _ hnn)]
      simp only [performAll, perform, e]
      obtain ⟨w', h1, D⟩ := sets_done cs { w with assigned := dictSet w.assigned n v }
        (fun d hd => hk d (by simp [hd]))
        (fun m hm => hn m (by simp only [setNames, List.filterMap_cons] at hm ⊢; exact List.mem_cons_of_mem _ hm))
        (by
          simp only [dictGet_set]
          split
          · rename_i e; subst e; exact absurd hnn (methods_no_settings _ (by decide))
          · exact hs)
      refine ⟨w', h1, D.namespaces, D.docs, ?_, ?_⟩
      · intro hnd m x hm
        have hn' : n ∉ setNames cs ∧ (setNames cs).Nodup := by simpa [setNames] using hnd
        rcases List.mem_cons.1 hm with he | hm
        · injection he with e1 e2; subst e1; subst e2
          rw [D.others _ hn'.1]; simp [dictGet_set]
        · exact D.gives hn'.2 m x hm
      · intro m hm
        have : m ≠ n ∧ m ∉ setNames cs := by simpa [setNames] using hm
        rw [D.others m this.2]; simp only [dictGet_set]; rw [if_neg (fun e => this.1 e.symm)]
    | createNamespace _ _ _ => exact hc.elim
    | createDocument _ _ => exact hc.elim
    | createMapping _ _ _ => exact hc.elim

theorem ns_succeeds : ∀ (cs : List Cmd) (w : CfgWs), (∀ c ∈ cs, IsNs c) →
    (∀ n roles base, Cmd.createNamespace n roles base ∈ cs → ∀ e ∈ roles, ∃ r, parseRole e.1 = .ok r) →
    ∃ w', performAll w cs = (w', .ok ())
  | [], w, _, _ => ⟨w, rfl⟩
  | c :: cs, w, hk, hr => by
    have hc := hk c (by simp)
    cases c with
    | createNamespace n roles base =>
      obtain ⟨ns, h1, _⟩ := roles_ok w.namespaces n roles base (hr n roles base (by simp))
      simp only [performAll, perform, h1]
      exact ns_succeeds cs _ (fun d hd => hk d (by simp [hd])) (fun a b c' h => hr a b c' (by simp [h]))
    | createDocument _ _ => exact hc.elim
    | createMapping _ _ _ => exact hc.elim
    | setValue _ _ => exact hc.elim

theorem says_kinds {classes : String → Option (Nat → Bool)} {config : List (String × Toml)}
    {ns docs maps sets : List Cmd} (h : Says classes config ns docs maps sets) :
    (∀ c ∈ ns, IsNs c) ∧ (∀ c ∈ docs, IsDoc c) ∧ (∀ c ∈ maps, IsMap c) ∧ (∀ c ∈ sets, IsSet c) := by
  refine ⟨?_, ?_, ?_, ?_⟩
  · intro c hc; obtain ⟨e, he⟩ := section_mem h.namespaces c hc; cases he; trivial
  · intro c hc; obtain ⟨e, he⟩ := section_mem h.documents c hc; cases he; trivial
  · intro c hc; obtain ⟨e, he⟩ := section_mem h.mappings c hc; cases he; trivial
  · intro c hc; obtain ⟨e, he⟩ := section_mem h.settings c hc; cases he; trivial

/-- C59: a file whose role names and settings exist is loaded without error, into a workspace whose
settings were used as meant. -/
theorem C59_loads (classes : String → Option (Nat → Bool)) (config : List (String × Toml))
    (ns docs maps sets : List Cmd) (h : Says classes config ns docs maps sets) (w : CfgWs)
    (hw : ∀ m ∈ methods, dictGet w.assigned m = none)
    (hroles : ∀ n roles base, Cmd.createNamespace n roles base ∈ ns → ∀ e ∈ roles, ∃ r, parseRole e.1 = .ok r)
    (hset : ∀ n v, Cmd.setValue n v ∈ sets → n ∈ settings) :
    ∃ w', loadConfig classes w config = (w', .ok ()) := by
  obtain ⟨k1, k2, k3, k4⟩ := says_kinds h
  rw [C59_calls classes config ns docs maps sets h w (hw _ (by decide)), List.append_assoc, List.append_assoc]
  obtain ⟨w1, h1⟩ := ns_succeeds ns w k1 hroles
  have D1 := ns_done ns w w1 k1 h1
  obtain ⟨w2, h2, D2⟩ := docs_done docs w1 k2
  obtain ⟨w3, h3, D3⟩ := maps_done maps w2 k3
  obtain ⟨w4, h4, D4⟩ := sets_done sets w3 k4 (by
    intro n hn
    obtain ⟨c, hc, hcn⟩ := List.mem_filterMap.1 hn
    cases c with
    | setValue m v => simp only [Option.some.injEq] at hcn; subst hcn; exact settings_known _ (hset m v hc)
    | createNamespace _ _ _ => simp at hcn
    | createDocument _ _ => simp at hcn
    | createMapping _ _ _ => simp at hcn) (by
      rw [D3.assigned, D2.assigned, D1.assigned]; exact hw _ (by decide))
  exact ⟨w4, by simp only [performAll_append, h1, h2, h3, h4]⟩

/-- C59, what a loaded file has done: each namespace answers for roles as if created by the
corresponding call, the documents and mappings have been added in order, each setting has its value;
other namespaces and settings are as before. -/
theorem C59_effect (classes : String → Option (Nat → Bool)) (config : List (String × Toml))
    (ns docs maps sets : List Cmd) (h : Says classes config ns docs maps sets) (w w' : CfgWs)
    (hw : ∀ m ∈ methods, dictGet w.assigned m = none)
    (hset : ∀ n v, Cmd.setValue n v ∈ sets → n ∈ settings)
    (hns : (nsNames ns).Nodup) (hsets : (setNames sets).Nodup)
    (hl : loadConfig classes w config = (w', .ok ())) :
    (∀ n roles base, Cmd.createNamespace n roles base ∈ ns → ∀ role,
      packageRefByRole w'.namespaces n role =
        packageRefByRole (Work.createNamespace [] n roles base).1 n role) ∧
    (∀ n, n ∉ nsNames ns → ∀ role,
      packageRefByRole w'.namespaces n role = packageRefByRole w.namespaces n role) ∧
    w'.docs.docs.map (fun d => (d.filePath, d.packageRefs)) =
      w.docs.docs.map (fun d => (d.filePath, d.packageRefs)) ++ docEntries docs ∧
    w'.docs.mappings = w.docs.mappings ++ mapEntries maps ∧
    (∀ n v, Cmd.setValue n v ∈ sets → getValue w'.assigned n = .ok v) ∧
    (∀ n, n ∉ setNames sets → getValue w'.assigned n = getValue w.assigned n) := by
  obtain ⟨k1, k2, k3, k4⟩ := says_kinds h
  rw [C59_calls classes config ns docs maps sets h w (hw _ (by decide)), List.append_assoc,
    List.append_assoc, performAll_append] at hl
  cases h1 : performAll w ns with
  | mk w1 r1 =>
    rw [h1] at hl
    cases r1 with
    | error e => simp at hl
    | ok u =>
      have D1 := ns_done ns w w1 k1 h1
      obtain ⟨w2, h2, D2⟩ := docs_done docs w1 k2
      obtain ⟨w3, h3, D3⟩ := maps_done maps w2 k3
      have hsn : ∀ n ∈ setNames sets, n ∈ settingNames := by
        intro n hn
        obtain ⟨c, hc, hcn⟩ := List.mem_filterMap.1 hn
        cases c with
        | setValue m v => simp only [Option.some.injEq] at hcn; subst hcn; exact settings_known _ (hset m v hc)
        | createNamespace _ _ _ => simp at hcn
        | createDocument _ _ => simp at hcn
        | createMapping _ _ _ => simp at hcn
      have a3 : w3.assigned = w.assigned := by rw [D3.assigned, D2.assigned, D1.assigned]
      obtain ⟨w4, h4, D4⟩ := sets_done sets w3 k4 hsn (by rw [a3]; exact hw _ (by decide))
      simp only [performAll_append, h2, h3, h4] at hl
      injection hl with hl _
      subst hl
      have hgv : dictHas w4.assigned "get_value" = false := by
        have : dictGet w4.assigned "get_value" = none := by
          rw [D4.others _ (fun hm => methods_no_settings _ (by decide) (hsn _ hm)), a3]
          exact hw _ (by decide)
        simp [dictHas, this]
      have hgv0 : dictHas w.assigned "get_value" = false := by
        simp [dictHas, hw "get_value" (by decide)]
      have nss : w4.namespaces = w1.namespaces := by rw [D4.namespaces, D3.namespaces, D2.namespaces]
      refine ⟨?_, ?_, ?_, ?_, ?_, ?_⟩
      · intro n roles base hm role
        obtain ⟨nsp, g1, g2⟩ := D1.gives hns n roles base hm
        rw [nss]
        simp only [packageRefByRole, g1, Work.createNamespace, g2, dictSet, dictGet, if_true]
      · intro n hn role
        rw [nss]
        simp only [packageRefByRole, D1.others n hn]
      · rw [D4.docs, D3.docs, D2.docs, D1.docs]
      · rw [D4.docs, D3.mappings, D2.mappings, D1.docs]
      · intro n v hm
        unfold getValue
        rw [if_neg (by simp [hgv]), D4.gives hsets n v hm]
      · intro n hn
        unfold getValue
        simp only [hgv, hgv0, D4.others n hn, a3]

/-! ### What is accepted -/

theorem ns_accepted : ∀ (l : List (String × Toml)) (w w' : CfgWs), loadNamespaces w l = (w', .ok ()) →
    ∃ cs, Each SaysNamespace l cs
  | [], w, w', _ => ⟨[], .nil⟩
  | (n, t) :: rest, w, w', h => by
    simp only [loadNamespaces] at h
    cases t with
    | table tbl =>
      simp only [namespaceFromConfig, namespaceOf] at h
      cases hf : fillToml ((dictGet tbl "base_ref").getD (.str ("/" ++ n)))
          (tbl.filter fun e => e.1 ≠ "base_ref") [] with
      | error e => simp only [hf] at h; injection h with _ h; cases h
      | ok m =>
        simp only [hf] at h
        have key : ∀ base : Option String, dictGet tbl "base_ref" = base.map .str →
            ∃ c, SaysNamespace (n, .table tbl) c := by
          intro base hb
          rw [hb] at hf
          have hb' : (base.map Toml.str).getD (.str ("/" ++ n)) = .str (base.getD ("/" ++ n)) := by
            cases base <;> rfl
          rw [hb'] at hf
          obtain ⟨roles, hr⟩ := fillToml_texts hf
          exact ⟨_, .mk hb hr⟩
        cases hb : dictGet tbl "base_ref" with
        | none =>
          simp only [hb] at h
          obtain ⟨c, hc⟩ := key none hb
          obtain ⟨cs, hcs⟩ := ns_accepted rest _ w' h
          exact ⟨c :: cs, .cons hc hcs⟩
        | some v =>
          cases v with
          | str b =>
            simp only [hb] at h
            obtain ⟨c, hc⟩ := key (some b) hb
            obtain ⟨cs, hcs⟩ := ns_accepted rest _ w' h
            exact ⟨c :: cs, .cons hc hcs⟩
          | other => simp [hb] at h
          | list _ => simp [hb] at h
          | table _ => simp [hb] at h
    | str _ => simp [namespaceFromConfig] at h
    | other => simp [namespaceFromConfig] at h
    | list _ => simp [namespaceFromConfig] at h

theorem docs_accepted : ∀ (l : List (String × Toml)) (w w' : CfgWs),
    (∀ n tbl, (n, Toml.table tbl) ∈ l → ∀ t, dictGet tbl "packages" ≠ some (.table t)) →
    loadDocuments w l = (w', .ok ()) → ∃ cs, Each SaysDocument l cs
  | [], w, w', _, _ => ⟨[], .nil⟩
  | (n, t) :: rest, w, w', hno, h => by
    simp only [loadDocuments] at h
    cases t with
    | table tbl =>
      simp only [documentFromConfig] at h
      cases hp : packageRefs (dictGet tbl "packages") with
      | error e => simp [hp] at h
      | ok rs =>
        simp only [hp, Work.createDocument] at h
        obtain ⟨cs, hcs⟩ := docs_accepted rest _ w' (fun a b hm => hno a b (by simp [hm])) h
        have hsay : SaysDocument (n, .table tbl) (.createDocument (n ++ ".arxml") rs) := by
          cases hv : dictGet tbl "packages" with
          | none => simp [hv, packageRefs] at hp
          | some v =>
            rw [hv] at hp
            cases v with
            | str s => simp [packageRefs] at hp; subst hp; exact .mk hv (.one s)
            | list l =>
              have hp' : textsOf l = .ok rs := hp
              have := textsOf_ok hp'
              subst this
              exact .mk hv (.many rs)
            | other => simp [packageRefs] at hp
            | table t => exact absurd hv (hno n tbl (by simp) t)
        exact ⟨_, .cons hsay hcs⟩
    | str _ => simp [documentFromConfig] at h
    | other => simp [documentFromConfig] at h
    | list _ => simp [documentFromConfig] at h

theorem maps_accepted {classes : String → Option (Nat → Bool)} : ∀ (l : List (String × Toml)) (w w' : CfgWs),
    loadMappings classes w l = (w', .ok ()) → ∃ cs, Each (SaysMapping classes) l cs
  | [], w, w', _ => ⟨[], .nil⟩
  | (n, t) :: rest, w, w', h => by
    simp only [loadMappings] at h
    cases t with
    | table tbl =>
      simp only [mappingFromConfig] at h
      cases hr : dictGet tbl "package_ref" with
      | none => simp [hr] at h
      | some ref =>
        simp only [hr] at h
        cases hv : dictGet tbl "element_types" with
        | none => simp [hv] at h
        | some v =>
          simp only [hv] at h
          cases ho : oneOrMore v with
          | error e => simp [ho] at h
          | ok names =>
            simp only [ho] at h
            cases hc : classesOf classes names with
            | error e => simp [hc] at h
            | ok cs =>
              simp only [hc] at h
              by_cases hlen : cs.length = 0
              · simp [hlen] at h
              · rw [if_neg hlen] at h
                cases hs : suffixesOf (dictGet tbl "suffix_filters") with
                | error e => simp [hs] at h
                | ok sfx =>
                  simp only [hs] at h
                  cases ref with
                  | str r =>
                    simp only [Work.createMapping] at h
                    obtain ⟨ds, hds⟩ := maps_accepted rest _ w' h
                    obtain ⟨cs', g1, g2, g3⟩ := classesOf_some (classesOf_ok hc)
                    rw [hc] at g1; injection g1 with g1; subst g1
                    refine ⟨_, .cons (.mk (sfx := sfx) hr hv (oneOrMore_iff.1 ho) ?_ (classesOf_ok hc) g3 ?_) hds⟩
                    · intro h0; rw [h0] at g2; exact hlen g2
                    · cases hf : dictGet tbl "suffix_filters" with
                      | none => rw [hf] at hs; simp [suffixesOf] at hs; exact Or.inl ⟨rfl, hs⟩
                      | some f => rw [hf] at hs; exact Or.inr ⟨f, rfl, oneOrMore_iff.1 hs⟩
                  | other => simp at h
                  | list _ => simp at h
                  | table _ => simp at h
    | str _ => simp [mappingFromConfig] at h
    | other => simp [mappingFromConfig] at h
    | list _ => simp [mappingFromConfig] at h

theorem sets_accepted : ∀ (l : List (String × Toml)) (a a' : Dict String), setValues a l = (a', .ok ()) →
    ∃ cs, Each SaysSetting l cs ∧ ∀ n v, Cmd.setValue n v ∈ cs → n ∈ settingNames ++ settingMethods
  | [], a, a', _ => ⟨[], .nil, by simp⟩
  | (n, t) :: rest, a, a', h => by
    simp only [setValues, setValue] at h
    split at h
    · rename_i heq; split at heq
      · simp at heq; simp at h
      · split at heq
        · split at heq <;> simp at heq <;> simp at h
        · simp at h
    · rename_i a1 heq
      split at heq
      · simp at heq
      · split at heq
        · rename_i hmem
          split at heq
          · rename_i s
            obtain ⟨cs, h1, h2⟩ := sets_accepted rest _ a' h
            refine ⟨_, .cons .mk h1, ?_⟩
            intro m v hm
            rcases List.mem_cons.1 hm with he | hm
            · injection he with e1 e2; subst e1; exact hmem
            · exact h2 m v hm
          · simp at heq
        · simp at heq

theorem section_ok {v : Option Toml} {w w' : CfgWs} {f : CfgWs → List (String × Toml) → CfgWs × Except PyErr Unit}
    (h : section? w v f = (w', .ok ())) : v = none ∨ ∃ l, v = some (.table l) ∧ f w l = (w', .ok ()) := by
  cases v with
  | none => exact Or.inl rfl
  | some t =>
    cases t with
    | table l => exact Or.inr ⟨l, rfl, h⟩
    | str _ => simp [section?] at h
    | other => simp [section?] at h
    | list _ => simp [section?] at h

/-- C59, the converse: a file that is loaded without error has the form required, except that the
packages of a document may be a table, and names of settings may be names of methods. -/
theorem C59_accepted_partial (classes : String → Option (Nat → Bool)) (config : List (String × Toml)) (w w' : CfgWs)
    (hno : ∀ l, dictGet config "document" = some (.table l) →
      ∀ n tbl, (n, Toml.table tbl) ∈ l → ∀ t, dictGet tbl "packages" ≠ some (.table t))
    (hl : loadConfig classes w config = (w', .ok ())) :
    ∃ ns docs maps sets, Says classes config ns docs maps sets ∧
      ∀ n v, Cmd.setValue n v ∈ sets → n ∈ settings ++ methods := by
  unfold loadConfig at hl
  cases h1 : section? w (dictGet config "namespace") loadNamespaces with
  | mk w1 r1 =>
    rw [h1] at hl
    cases r1 with
    | error e => simp at hl
    | ok u =>
      simp only at hl
      cases h2 : section? w1 (dictGet config "document") loadDocuments with
      | mk w2 r2 =>
        rw [h2] at hl
        cases r2 with
        | error e => simp at hl
        | ok u =>
          simp only at hl
          cases h3 : section? w2 (dictGet config "document_mapping") (loadMappings classes) with
          | mk w3 r3 =>
            rw [h3] at hl
            cases r3 with
            | error e => simp at hl
            | ok u =>
              simp only at hl
              obtain ⟨ns, hns⟩ : ∃ ns, Section SaysNamespace (dictGet config "namespace") ns := by
                rcases section_ok h1 with h | ⟨l, h, g⟩
                · rw [h]; exact ⟨[], .missing⟩
                · rw [h]; obtain ⟨cs, hc⟩ := ns_accepted l _ _ g; exact ⟨cs, .present hc⟩
              obtain ⟨docs, hdocs⟩ : ∃ ns, Section SaysDocument (dictGet config "document") ns := by
                rcases section_ok h2 with h | ⟨l, h, g⟩
                · rw [h]; exact ⟨[], .missing⟩
                · rw [h]; obtain ⟨cs, hc⟩ := docs_accepted l _ _ (hno l h) g; exact ⟨cs, .present hc⟩
              obtain ⟨maps, hmaps⟩ : ∃ ns, Section (SaysMapping classes) (dictGet config "document_mapping") ns := by
                rcases section_ok h3 with h | ⟨l, h, g⟩
                · rw [h]; exact ⟨[], .missing⟩
                · rw [h]; obtain ⟨cs, hc⟩ := maps_accepted l _ _ g; exact ⟨cs, .present hc⟩
              obtain ⟨sets, hsets, hm⟩ : ∃ ns, Section SaysSetting (dictGet config "behavior") ns ∧
                  ∀ n v, Cmd.setValue n v ∈ ns → n ∈ settingNames ++ settingMethods := by
                cases hb : dictGet config "behavior" with
                | none => exact ⟨[], .missing, by simp⟩
                | some t =>
                  rw [hb] at hl
                  simp only at hl
                  have hu : (updateSettings w3.assigned t).2 = .ok () := by
                    have := congrArg Prod.snd hl; exact this
                  cases t with
                  | table l =>
                    simp only [updateSettings] at hu
                    split at hu
                    · simp at hu
                    · obtain ⟨cs, g1, g2⟩ := sets_accepted l w3.assigned (setValues w3.assigned l).1
                        (Prod.ext rfl hu)
                      exact ⟨cs, .present g1, g2⟩
                  | str _ => simp only [updateSettings] at hu; split at hu <;> simp at hu
                  | other => simp only [updateSettings] at hu; split at hu <;> simp at hu
                  | list _ => simp only [updateSettings] at hu; split at hu <;> simp at hu
              exact ⟨ns, docs, maps, sets, ⟨hns, hdocs, hmaps, hsets⟩, fun n v h => accepted_names n (hm n v h)⟩

/-! ### Examples -/

/-- A new workspace. -/
def fresh : CfgWs := ⟨[], ⟨Heap.empty.alloc .collection "", 0, [], [], none, []⟩, []⟩

/-- Two classes of elements. -/
def someClasses (n : String) : Option (Nat → Bool) :=
  if n = "Unit" then some (fun x => decide (x < 10)) else if n = "CompuMethod" then some (fun x => decide (10 ≤ x)) else none

/-- `[namespace.Default]`, `[document.constants]`, `[document_mapping.x]`, `[behavior]` -/
def sampleConfig : List (String × Toml) :=
  [("behavior", .table [("timing_event_prefix", .str "TMT")]),
   ("namespace", .table [("Default", .table [("Unit", .str "Units"), ("base_ref", .str "/Base"), ("!Own", .str "Mine")])]),
   ("document", .table [("constants", .table [("packages", .str "/Constants")]),
                        ("types", .table [("packages", .list [.str "/A", .str "/B"])])]),
   ("document_mapping", .table [("x", .table [("package_ref", .str "/Swc"), ("element_types", .str "Unit"),
                                              ("suffix_filters", .list [.str "_Impl"])])])]

example : Says someClasses sampleConfig
    [.createNamespace "Default" [("Unit", "Units"), ("!Own", "Mine")] (some "/Base")]
    [.createDocument "constants.arxml" ["/Constants"], .createDocument "types.arxml" ["/A", "/B"]]
    [.createMapping "/Swc" (fun x => decide (x < 10)) ["_Impl"]]
    [.setValue "timing_event_prefix" "TMT"] where
  namespaces := .present (.cons (.mk rfl rfl) .nil)
  documents := .present (.cons (.mk rfl (.one _)) (.cons (.mk rfl (.many ["/A", "/B"])) .nil))
  mappings := .present (.cons (.mk (names := ["Unit"]) rfl rfl (.one _) (by simp) (by simp [someClasses])
    (by simp [someClasses]) (Or.inr ⟨_, rfl, .many ["_Impl"]⟩)) .nil)
  settings := .present (.cons .mk .nil)

example : (loadConfig someClasses fresh sampleConfig).2 = .ok () ∧
    packageRefByRole (loadConfig someClasses fresh sampleConfig).1.namespaces "Default" (.std "UNIT") = .ok "/Base/Units" ∧
    getValue (loadConfig someClasses fresh sampleConfig).1.assigned "timing_event_prefix" = .ok "TMT" := by
  decide +kernel

/-- C59, what can go wrong: an error in the last section leaves what the sections before have done;
`update = "…"` is taken as a setting and afterwards no file with settings can be loaded; a document
without packages raises TypeError; the keys of a table are taken as packages. -/
theorem C59_findings :
    ((loadConfig someClasses fresh [("namespace", .table [("N", .table [])]), ("behavior", .table [("no_such", .str "x")])]).2
        = .error .keyError ∧
      (loadConfig someClasses fresh [("namespace", .table [("N", .table [])]), ("behavior", .table [("no_such", .str "x")])]).1.namespaces.length
        = 1) ∧
    (∃ w, loadConfig someClasses fresh [("behavior", .table [("update", .str "x")])] = (w, .ok ()) ∧
      (loadConfig someClasses w [("behavior", .table [("timing_event_prefix", .str "TMT")])]).2 = .error .typeError) ∧
    (loadConfig someClasses fresh [("document", .table [("d", .table [])])]).2 = .error .typeError ∧
    (loadConfig someClasses fresh [("document", .table [("d", .table [("packages", .table [("/A", .other)])])])]).2 = .ok () := by
  refine ⟨⟨by decide +kernel, by decide +kernel⟩, ⟨_, rfl, by decide +kernel⟩, by decide +kernel, by decide +kernel⟩

end Verif.Props.WorkConfig
