import Verif.Codec.EventKeep
import Verif.Props.SwcEvent
import Verif.Props.CodecConnect
/-
C68: events made in documents that are saved and loaded.
-/
set_option linter.unusedSimpArgs false
namespace Verif.Props.CodecEvent
open Verif.Py Verif.Ref Verif.Pkg.Spec Verif.Codec Verif.Codec.Spec Verif.Codec.Find Verif.Codec.FindSpec
open Verif.Codec.Connect (change exchanged ex_names ex_wf ex_areas ex_at element_plain ref_text_ok refAttr
  plain_ref slash_ne ref_append field_attr elem_wf areas_get dictGet_lookup)
open Verif.Codec.ConnectSpec Verif.Codec.Event Verif.Codec.EventSpec
open Verif.Codec.Older.Spec (areasNamedPkgs areasNamed areasNamedFields SameSide)
open Verif.Codec.Owner (shortName)
open Verif.Names (Name Digits Plain)
open Verif.Props.Names (numbered)
open Verif.Props.CodecConnect (element_norm)
open Verif.Swc.EventSpec (First OneSlash Wants create_begun)

/-! ### What is made -/

theorem behavior_named {gs : List (String × Val Cls)}
    (h : WellFormed .SwcInternalBehavior (.obj .SwcInternalBehavior gs)) :
    Event.Named (.obj .SwcInternalBehavior gs) := named_wf h (by decide +kernel)

theorem runnable_named {gs : List (String × Val Cls)}
    (h : WellFormed .SwcInternalBehavior (.obj .SwcInternalBehavior gs)) {x : Val Cls}
    (hx : x ∈ members (.obj .SwcInternalBehavior gs) "runnables") : Event.Named x :=
  (member_named h (by simp [lists]) hx).1

theorem two_append (way : List String) (a b : String) : way ++ [a, b] = (way ++ [a]) ++ [b] := by simp

theorem lookup_other {a k : String} (h : a ≠ k) (x : Val Cls) (fs : List (String × Val Cls)) :
    List.lookup a ((k, x) :: fs) = List.lookup a fs := by
  have : (a == k) = false := by simpa using h
  simp only [List.lookup, this]

/-- The runnable. -/
theorem starts_of {ps : List Pkg} {K : Known} {way : List String} {v : Val Cls} (h : IsApp ps way v)
    {gs : List (String × Val Cls)}
    (hb : WellFormed .SwcInternalBehavior (.obj .SwcInternalBehavior gs)) {run : String} {r : Swc.Run}
    (hr : First (behaviorOf ps K way v (.obj .SwcInternalBehavior gs)).runnables (fun x => x.name = run) r)
    (c : Cls) (n : String) (fs : List (String × Val Cls)) (hf : fs.lookup "start_on_event" = none) :
    Starts K way (.obj .SwcInternalBehavior gs) run (.obj c ([("name", .str n)] ++
      refAttr "start_on_event" (r.ref.map fun s => ⟨"RunnableEntityRef", s, "RUNNABLE_ENTITY"⟩) ++ fs)) ∧
    ∀ q, r.ref.map (fun s => (⟨"RunnableEntityRef", s, "RUNNABLE_ENTITY"⟩ : RefObj)) = some q →
      GoodRef "RunnableEntityRef" (.ref q) := by
  obtain ⟨x, hx, rfl⟩ := first_map.1 hr
  have hn := runnable_named hb (first_mem hx)
  have hbn := behavior_named hb
  have hrun : shortName x = run := hx.choose_spec.choose_spec.2.1
  refine ⟨⟨x, _, (first_congr fun y hy => ?_).1 hx, hbn.name, ?_⟩, fun q hq => ?_⟩
  · rw [(runnable_named hb hy).name, Option.some.injEq]
    exact Iff.rfl
  · simp only [runOf, hrun]
    cases K.behavior with
    | true =>
      simp only [if_true, Option.map_some, refAttr, field]
      rfl
    | false =>
      simp only [Bool.false_eq_true, if_false, Option.map_none, refAttr, field, List.append_nil,
        List.cons_append, List.nil_append]
      rw [lookup_other (by decide)]
      exact hf
  · simp only [runOf] at hq
    cases hK : K.behavior with
    | false => simp [hK] at hq
    | true =>
      simp only [hK, if_true, Option.map_some, Option.some.injEq] at hq
      subst hq
      refine ⟨_, _, rfl, ?_, ?_⟩
      · rw [ref_text_ok _ _ (by rw [two_append]; exact ref_ne _ _)]
        decide +kernel
      · rw [two_append]
        refine ref_plain (fun m hm => ?_) hn.plain
        rcases List.mem_append.1 hm with hm | hm
        · exact element_plain h.at' h.wf m hm
        · rw [List.mem_singleton.1 hm]; exact hbn.plain

theorem about_lookup {c : Cls} {fs : List (String × Val Cls)} (h : (c, fs.map (·.1)) ∈ orders) :
    fs.lookup "start_on_event" = none := by
  have : ∀ p ∈ orders, "start_on_event" ∉ p.2 := by decide +kernel
  have h1 := this _ h
  rw [List.lookup_eq_none_iff]
  intro p hp
  have : "start_on_event" ≠ p.1 := fun e => h1 (by rw [e]; exact List.mem_map_of_mem hp)
  simpa using this

theorem has_only (c : Cls) (n : String) (r : Option RefObj) (fs : List (String × Val Cls)) :
    HasOnly fs (.obj c ([("name", .str n)] ++ refAttr "start_on_event" r ++ fs)) := by
  intro a h1 h2
  cases r with
  | none =>
    simp only [refAttr, field, List.append_nil, List.cons_append, List.nil_append]
    rw [lookup_other h1]
  | some r =>
    simp only [refAttr, field, List.cons_append, List.nil_append]
    rw [lookup_other h1, lookup_other h2]

theorem base_of {ps : List Pkg} {K : Known} {way : List String} {v b : Val Cls} {given : Option Name}
    {key run : String} {parts : List String} {objs : List (Val Cls)} {base : Name}
    (h : Swc.EventSpec.BaseName (behaviorOf ps K way v b).swc given key run parts base)
    (ho : objs.map elemName = parts.map some) : BaseName K given key run objs base := by
  rcases h with h | ⟨h1, c, s, p, h2, h3, h4, h5, h6⟩
  · exact .inl h
  · refine .inr ⟨h1, s, p, parts, ?_, h4, h5, ho, h6⟩
    simp only [behaviorOf] at h2
    split at h2
    · cases h2; exact Option.some.inj h3
    · cases h2

/-- C68: when a method for creating events returns an event, the runnable of that name is there and the event
starts it, and it is of the class asked for and refers to exactly the ports and data elements, operations, mode
groups and modes that the texts name in the document.  It has the name given, or the one made of prefix,
runnable and the names of the objects it is about, with a number behind it if needed, and no other event has
its name.  It is put behind the other events, of which none has changed, or only the name of the last one that
had this very name; everything else in the packages is as it was.  The document with it can be written and
read; then all elements are there as they were, and the event is the last one of the behaviour.  Missing: texts
with more than one slash and names with characters special in regular expressions (see C55 and C10). -/
theorem C68_saved_partial (D : Digits) (skip stop : Bool) (version : Nat) (doc : Document)
    (h : WellFormedPkgs doc.packages) (hn : (doc.packages.map Pkg.name).Nodup)
    (ha : doc.schemaVersion < 50 → areasNamedPkgs doc.packages = true)
    (hv : skip = true → SameSide version doc.schemaVersion) (K : Known)
    (way : List String) (v b : Val Cls) (hat : ElementAt doc.packages way v)
    (hc : classOf v = some .ApplicationSoftwareComponentType)
    (hb : field v "internal_behavior" = some b) (run : String) (given : Option Name) (extra : Option PyErr)
    (req : Swc.Request) (h1 : OneSlash req) (hval : ValuesOk req)
    (hname : ∀ c key objs fs base, About doc.packages K way v req c key objs fs →
      BaseName K given key run objs base → NameOk base)
    (ps' : List Pkg) (k : Val Cls)
    (hk : createEvent D doc.packages K way v b run given extra req = some (.ok (ps', k))) :
    ∃ c key objs fs base n old v' b' text doc',
      Starts K way b run k ∧ About doc.packages K way v req c key objs fs ∧ classOf k = some c ∧
      HasOnly fs k ∧ BaseName K given key run objs base ∧ elemName k = some (String.ofList n) ∧
      ((n = base ∧ ∀ x ∈ members b "events", elemName x ≠ some (String.ofList base)) ∨
        ∃ i, n = numbered base (i + 1)) ∧
      (∀ x ∈ old, elemName x ≠ elemName k) ∧
      ((∀ x ∈ members b "events", elemName x ≠ some (String.ofList base)) → old = members b "events") ∧
      ((∃ x ∈ members b "events", elemName x = some (String.ofList base)) →
        OneRenamed (String.ofList base) (String.ofList (numbered base 0)) (members b "events") old) ∧
      WithEvents (old ++ [k]) v b v' b' ∧ Exchanged v v' way doc.packages ps' ∧
      Older.writeDoc skip ⟨doc.schemaVersion, ps'⟩ = .ok text ∧
      Older.readDoc stop version text = .ok doc' ∧
      (∀ way t, ElementAt ps' way t → ∃ t', ElementAt doc'.packages way t' ∧ Same (remains t) t') ∧
      ∃ v'' b'' k'', ElementAt doc'.packages way v'' ∧ field v'' "internal_behavior" = some b'' ∧
        (members b'' "events").getLast? = some k'' ∧
        (members b'' "events").map elemName = (old ++ [k]).map elemName ∧ Same (remains k) k'' := by
  have hi : IsApp doc.packages way v := ⟨hat, h, hc⟩
  obtain ⟨vs, rfl, hvw⟩ := app_wf hi
  obtain ⟨gs, rfl, hbw⟩ := behavior_wf hvw hb
  unfold createEvent at hk
  split at hk
  · cases hk
  · cases hk
  next evs ev hce =>
  simp only [Option.some.injEq, Except.ok.injEq, Prod.mk.injEq] at hk
  obtain ⟨hk1, hk2⟩ := hk
  -- what the method did
  rcases create_begun (D := D) (b := behaviorOf doc.packages K way (.obj .ApplicationSoftwareComponentType vs)
      (.obj .SwcInternalBehavior gs)) (run := run) (given := given) (extra := extra) h1 with
    ⟨e, he⟩ | ⟨base, kind, start, made, hbeg, he⟩
  · rw [he] at hce; cases hce
  rw [he] at hce
  obtain ⟨names, u, t, hu, ht, rfl, hevs⟩ := SwcEvent.finish_ok hce
  obtain ⟨r, key, parts, hr, hstart, hwant, hbase⟩ := SwcEvent.begun_ok hbeg ht
  have hswc : (behaviorOf doc.packages K way (.obj .ApplicationSoftwareComponentType vs)
      (.obj .SwcInternalBehavior gs)).swc =
        some (compOf doc.packages K way (.obj .ApplicationSoftwareComponentType vs)) ∨
      (behaviorOf doc.packages K way (.obj .ApplicationSoftwareComponentType vs)
        (.obj .SwcInternalBehavior gs)).swc = none := by
    simp only [behaviorOf]
    split
    · exact .inl rfl
    · exact .inr rfl
  obtain ⟨objs, habout, hobjs⟩ := about_of hi hswc hwant
  have hbn := base_of hbase hobjs
  have hok := hname _ _ _ _ _ habout hbn
  -- the other events
  have hev : ∀ x ∈ members (.obj .SwcInternalBehavior gs) "events", EventOk x := fun x hx =>
    Connect.member_wf hbw events_shape.1 events_shape.2.1 hx
  have hmap : (behaviorOf doc.packages K way (.obj .ApplicationSoftwareComponentType vs)
      (.obj .SwcInternalBehavior gs)).events.map (·.name) =
      (members (.obj .SwcInternalBehavior gs) "events").map fun x => (shortName x).toList := by
    simp only [behaviorOf, List.map_map]
    rfl
  rw [hmap] at hu
  obtain ⟨old, hold, hlen, hallok, hsame, hren, hfresh, hfrom, hnum⟩ := events_after hev hok hu
  have hzip : List.zipWith (fun x (e : Swc.Event) => setName e.name x)
      (members (.obj .SwcInternalBehavior gs) "events") evs = old := by
    rw [hevs]
    exact (zip_rename hlen _).trans hold
  rw [hzip, hk2] at hk1
  -- the event
  obtain ⟨hord, -⟩ := about_fields hi habout hval
  obtain ⟨hst, hgood⟩ := starts_of hi hbw hr (kindCls kind) (String.ofList u)
    (targetFields (compOf doc.packages K way (.obj .ApplicationSoftwareComponentType vs)).ports t)
    (about_lookup hord)
  have hu0 : u ≠ [] ∧ plainText (String.ofList u) = true := by
    rcases hnum with ⟨rfl, -⟩ | ⟨i, rfl⟩
    · exact ⟨hok.1, hok.2.2⟩
    · exact numbered_ok hok _
  have hune : String.ofList u ≠ "" := by
    intro e
    have := congrArg String.toList e
    simp only [String.toList_ofList] at this
    exact hu0.1 this
  have hkw := event_wf hi habout hval hune hu0.2 (s := r.ref.map fun s =>
    ⟨"RunnableEntityRef", s, "RUNNABLE_ENTITY"⟩) hgood
  have hkeq : k = .obj (kindCls kind) ([("name", .str (String.ofList u))] ++
      refAttr "start_on_event" (r.ref.map fun s => ⟨"RunnableEntityRef", s, "RUNNABLE_ENTITY"⟩) ++
      targetFields (compOf doc.packages K way (.obj .ApplicationSoftwareComponentType vs)).ports t) := by
    rw [← hk2, ← hstart]
    rfl
  have hkarea : areasNamed k = true := by rw [← hk2]; exact areas_event _ _
  have hkname : elemName k = some (String.ofList u) := by rw [hkeq]; rfl
  rw [← hkeq] at hkw hst
  have hkonly : HasOnly (targetFields (compOf doc.packages K way
      (.obj .ApplicationSoftwareComponentType vs)).ports t) k := by rw [hkeq]; exact has_only _ _ _ _
  have hkcls : classOf k = some (kindCls kind) := by rw [hkeq]; rfl
  clear hk2
  -- the component
  have hall' : ∀ x ∈ old ++ [k], EventOk x := by
    intro x hx
    rcases List.mem_append.1 hx with hx | hx
    · exact hallok x hx
    · rw [List.mem_singleton.1 hx]
      exact ⟨⟨_, events_shape.2.2 _ (about_cls habout), hkw.1⟩, hkw.2⟩
  have hbw' := put_wf (l := old ++ [k]) (by simp) hall' hbw
  have hvw' := setBehavior_wf hvw hbw'
  have hwith := with_events (old ++ [k]) hb
  have hex := exchanged hat (setBehavior (putEvents (old ++ [k]) (.obj .SwcInternalBehavior gs))) h hn
  rw [hk1] at hex
  have hnm := setBehavior_name (putEvents (old ++ [k]) (.obj .SwcInternalBehavior gs))
    (.obj .ApplicationSoftwareComponentType vs)
  have hps' := ex_wf hex ⟨_, rfl, hvw'⟩ hnm h
  have hn' := (ex_names hex).symm ▸ hn
  have ha' : doc.schemaVersion < 50 → areasNamedPkgs ps' = true := by
    refine fun hlt => ex_areas hex (fun hva => ?_) (ha hlt)
    have hba : areasNamed (.obj .SwcInternalBehavior gs) = true := by
      refine areas_get (c := .ApplicationSoftwareComponentType) (by simp) hva (a := "internal_behavior") ?_
      simpa only [field, ← dictGet_lookup] using hb
    refine setBehavior_areas (put_areas (areas_each.2 fun x hx => ?_) hba) hva
    rcases List.mem_append.1 hx with hx | hx
    · obtain ⟨y, hy, m, rfl⟩ := hfrom x hx
      refine setName_areas m ?_
      simp only [members] at hy
      split at hy
      · next l hl =>
        have := areas_get (c := .SwcInternalBehavior) (by simp) hba hl
        exact areas_each.1 this y hy
      · simp at hy
    · rw [List.mem_singleton.1 hx]; exact hkarea
  obtain ⟨text, w, rd⟩ := Older.doc_rt skip stop version ⟨doc.schemaVersion, ps'⟩ hps' hn' ha' hv
  have hat' := ex_at hex hnm
  refine ⟨_, key, objs, _, base, u, old, _, _, text, _, hst, habout, hkcls, hkonly, hbn, hkname, hnum,
    ?_, hsame, hren, hwith, hex, w, rd, ?_, ?_⟩
  · rw [hkname]; exact hfresh
  · exact fun way' t' ht' => ⟨_, element_norm ht', same_norm false t'⟩
  · have hvb : TypeHeader.attr (setBehavior (putEvents (old ++ [k]) (.obj .SwcInternalBehavior gs))
        (.obj .ApplicationSoftwareComponentType vs)) "internal_behavior" =
        some (putEvents (old ++ [k]) (.obj .SwcInternalBehavior gs)) := by
      rw [← field_attr]; exact hwith.2.1
    obtain ⟨c1, e1⟩ := attr_norm false (setBehavior (putEvents (old ++ [k]) (.obj .SwcInternalBehavior gs))
      (.obj .ApplicationSoftwareComponentType vs)) (a := "internal_behavior") (by decide)
    rw [hvb, Option.map_some] at e1
    obtain ⟨c2, e2⟩ := members_norm c1 (putEvents (old ++ [k]) (.obj .SwcInternalBehavior gs))
      (a := "events") (by decide)
    have e3 : members (putEvents (old ++ [k]) (.obj .SwcInternalBehavior gs)) "events" = old ++ [k] := by
      simp only [putEvents, members]
      rw [put_get, if_pos rfl]
    rw [e3] at e2
    refine ⟨_, _, _, element_norm hat', (field_attr _ _).trans e1, ?_, ?_, same_norm c2 k⟩
    · rw [e2]; simp
    · rw [e2, List.map_map]
      exact List.map_congr_left fun x _ => elemName_norm c2 x

/-- What the call returns or raises. -/
def outcome (r : Option (Except PyErr (List Pkg × Val Cls))) : Option (Except PyErr (Val Cls)) :=
  r.map fun r => r.map (·.2)

/-- C68: in the document read, every call has the outcome it has in the document written (the same event or
the same exception), if the behaviour knows its component in both or in neither, the settings are the same, and
so is what the mode groups know, unless the request is not about modes. -/
theorem C68_reload (skip stop : Bool) (version : Nat) (doc : Document)
    (h : WellFormedPkgs doc.packages) (hn : (doc.packages.map Pkg.name).Nodup)
    (ha : doc.schemaVersion < 50 → areasNamedPkgs doc.packages = true)
    (hv : skip = true → SameSide version doc.schemaVersion) :
    ∃ text doc', Older.writeDoc skip doc = .ok text ∧ Older.readDoc stop version text = .ok doc' ∧
      ∀ way v b, ElementAt doc.packages way v → field v "internal_behavior" = some b →
        ∃ v' b', ElementAt doc'.packages way v' ∧ field v' "internal_behavior" = some b' ∧
          Same (remains v) v' ∧ ∀ D K K' run given extra req, K'.behavior = K.behavior →
            K'.settings = K.settings → (K'.group = K.group ∨ ¬ AboutModes req) →
            outcome (createEvent D doc'.packages K' way v' b' run given extra req) =
              outcome (createEvent D doc.packages K way v b run given extra req) := by
  obtain ⟨text, w, r⟩ := Older.doc_rt skip stop version doc h hn ha hv
  refine ⟨text, _, w, r, fun way v b hat hb => ?_⟩
  obtain ⟨c1, e1⟩ := attr_norm false v (a := "internal_behavior") (by decide)
  rw [← field_attr, ← field_attr, hb, Option.map_some] at e1
  refine ⟨_, _, element_norm hat, e1, same_norm false v, fun D K K' run given extra req h1 h2 h3 => ?_⟩
  have key : Swc.createEvent D (behaviorOf doc.packages K' way v b) run given extra req =
        Swc.createEvent D (behaviorOf doc.packages K way v b) run given extra req ∧
      ∀ e, eventObj ((members v "ports").filterMap (portOf doc.packages K' way)) e =
        eventObj ((members v "ports").filterMap (portOf doc.packages K way)) e := by
    rcases h3 with h3 | h3
    · have : K' = K := by
        cases K; cases K'
        simp only at h1 h2 h3
        subst h1 h2 h3
        rfl
      subst this
      exact ⟨rfl, fun _ => rfl⟩
    · refine ⟨?_, fun e => ?_⟩
      · rw [← create_noGroup _ _ _ _ _ h3, behavior_noGroup doc.packages h1 h2, create_noGroup _ _ _ _ _ h3]
      · rw [← obj_noGroup, ports_noGroup doc.packages K' K, obj_noGroup]
  unfold outcome createEvent
  simp only [behavior_norm, ports_norm, key.1, key.2]
  generalize Swc.createEvent D (behaviorOf doc.packages K way v b) run given extra req = res
  cases res with
  | none => rfl
  | some q =>
    obtain ⟨evs, q⟩ := q
    cases q <;> rfl

/-- C68: conversely, if the behaviour knows its component, the runnable is there, the texts name what the event
is to be about and the name can be formed, the event is made. -/
theorem C68_possible (D : Digits) (ps : List Pkg) (h : WellFormedPkgs ps) (K : Known) (hK : K.behavior = true)
    (way : List String) (v b : Val Cls) (hat : ElementAt ps way v)
    (hc : classOf v = some .ApplicationSoftwareComponentType) (hb : field v "internal_behavior" = some b)
    (run : String) (hr : ∃ x ∈ members b "runnables", elemName x = some run) (given : Option Name)
    (req : Swc.Request) (c : Cls) (key : String) (objs : List (Val Cls)) (fs : List (String × Val Cls))
    (hab : About ps K way v req c key objs fs) (base : Name) (hbn : BaseName K given key run objs base)
    (hp : Plain base) :
    ∃ ps' k, createEvent D ps K way v b run given none req = some (.ok (ps', k)) ∧ classOf k = some c ∧
      HasOnly fs k ∧ Starts K way b run k := by
  have hi : IsApp ps way v := ⟨hat, h, hc⟩
  obtain ⟨vs, rfl, hvw⟩ := app_wf hi
  obtain ⟨gs, rfl, hbw⟩ := behavior_wf hvw hb
  obtain ⟨kind, parts, t, hwant, rfl, rfl, hobjs⟩ := wants_of hi hab
  have hswc : (behaviorOf ps K way (.obj .ApplicationSoftwareComponentType vs)
      (.obj .SwcInternalBehavior gs)).swc =
      some (compOf ps K way (.obj .ApplicationSoftwareComponentType vs)) := by
    simp [behaviorOf, hK]
  obtain ⟨r, hrun⟩ : ∃ r, First (behaviorOf ps K way (.obj .ApplicationSoftwareComponentType vs)
      (.obj .SwcInternalBehavior gs)).runnables (fun x => x.name = run) r := by
    obtain ⟨x, hx, he⟩ := hr
    have hfind : ((behaviorOf ps K way (.obj .ApplicationSoftwareComponentType vs)
        (.obj .SwcInternalBehavior gs)).runnables.find? fun x => decide (x.name = run)).isSome := by
      rw [List.find?_isSome]
      refine ⟨_, List.mem_map.2 ⟨x, hx, rfl⟩, ?_⟩
      rw [(runnable_named hbw hx).name] at he
      exact decide_eq_true (Option.some.inj he)
    obtain ⟨r, hr⟩ := Option.isSome_iff_exists.1 hfind
    exact ⟨r, Swc.EventSpec.runnable_iff.1 hr⟩
  have hbase : Swc.EventSpec.BaseName (behaviorOf ps K way (.obj .ApplicationSoftwareComponentType vs)
      (.obj .SwcInternalBehavior gs)).swc given key run parts base := by
    rcases hbn with hbn | ⟨h1, s, p, names, h2, h3, h4, h5, h6⟩
    · exact .inl hbn
    · refine .inr ⟨h1, _, s, p, hswc, by simp [compOf, h2], h3, h4, ?_⟩
      have : names = parts := by
        rw [hobjs] at h5
        exact (List.map_inj_right fun _ _ e => Option.some.inj e).1 h5.symm
      rw [← this]; exact h6
  rw [← hswc] at hwant
  obtain ⟨evs, u, he⟩ := SwcEvent.C55_possible (D := D) hrun hwant hbase hp
  have hlook : (targetFields (compOf ps K way (.obj .ApplicationSoftwareComponentType vs)).ports t).lookup
      "start_on_event" = none := by
    cases t with
    | modes a l => cases a <;> rfl
    | timing p o => cases p <;> cases o <;> rfl
    | _ => rfl
  refine ⟨_, _, by unfold createEvent; rw [he], rfl, ?_, ?_⟩
  · exact has_only _ _ _ _
  · exact (starts_of hi hbw hrun _ _ _ hlook).1

/-- C68, finding: in a document that was loaded, where the behaviours were given to the constructors of their
components and do not know them, no event about a port can be made, and the events that can be made do not
refer to their runnables. -/
theorem C68_loaded_finding (D : Digits) (ps : List Pkg) (K : Known) (hK : K.behavior = false)
    (way : List String) (v b : Val Cls) (run : String)
    (hr : ∃ x ∈ members b "runnables", shortName x = run) :
    (∀ given extra text, ∀ req ∈ [Swc.Request.dataReceiveError text, .dataReceived text,
        .operationInvoked text, .modeManagerError text],
      createEvent D ps K way v b run given extra req = some (.error .runtimeError)) ∧
    (∀ given extra arg act,
      createEvent D ps K way v b run given extra (.modeSwitch arg act) = some (.error .runtimeError)) ∧
    ∀ base, Plain base → ∀ req ∈ [Swc.Request.background, .init, .timing none none], ∃ ps' k,
      createEvent D ps K way v b run (some base) none req = some (.ok (ps', k)) ∧
      field k "start_on_event" = none := by
  have hs : (behaviorOf ps K way v b).swc = none := by simp [behaviorOf, hK]
  have hnone : ∀ r ∈ (behaviorOf ps K way v b).runnables, r.ref = none := by
    intro r hr
    obtain ⟨x, -, rfl⟩ := List.mem_map.1 hr
    simp [runOf, hK]
  obtain ⟨r, hrun⟩ : ∃ r, First (behaviorOf ps K way v b).runnables (fun x => x.name = run) r := by
    obtain ⟨x, hx, he⟩ := hr
    have hfind : ((behaviorOf ps K way v b).runnables.find? fun x => decide (x.name = run)).isSome := by
      rw [List.find?_isSome]
      exact ⟨_, List.mem_map.2 ⟨x, hx, rfl⟩, decide_eq_true he⟩
    obtain ⟨r, hr⟩ := Option.isSome_iff_exists.1 hfind
    exact ⟨r, Swc.EventSpec.runnable_iff.1 hr⟩
  refine ⟨?_, ?_, ?_⟩
  · intro given extra text req hreq
    have := (SwcEvent.C55_loaded_finding D _ hs hnone run r hrun [] (by simp [Plain])).1 given extra req text hreq
    unfold createEvent
    rw [this]
  · intro given extra arg act
    have := (SwcEvent.C55_loaded_finding D _ hs hnone run r hrun [] (by simp [Plain])).2.1 given extra arg act
    unfold createEvent
    rw [this]
  · intro base hp req hreq
    obtain ⟨evs, ev, h1, h2⟩ := (SwcEvent.C55_loaded_finding D _ hs hnone run r hrun base hp).2.2 req hreq
    have ht : ev.target = .nothing ∨ ev.target = .timing none none := by
      simp only [List.mem_cons, List.not_mem_nil, or_false] at hreq
      rcases create_begun (D := D) (b := behaviorOf ps K way v b) (run := run) (given := some base)
        (extra := none) (req := req) (by rcases hreq with rfl | rfl | rfl <;> trivial) with
        ⟨e, he⟩ | ⟨base', kind, start, made, hbeg, he⟩
      · rw [he] at h1; cases h1
      · rw [he] at h1
        obtain ⟨names, u, t, -, ht, rfl, -⟩ := SwcEvent.finish_ok h1
        obtain ⟨r', key, parts, -, -, hw, -⟩ := SwcEvent.begun_ok hbeg ht
        rcases hreq with rfl | rfl | rfl <;> cases hw <;> simp [Swc.asFloat]
    refine ⟨_, _, by unfold createEvent; rw [h1], ?_⟩
    rcases ht with ht | ht <;> simp [eventObj, h2, ht, targetFields, numAttr, refAttr, field]

/-! ### A document -/

def speed : Val Cls := .obj .RequirePortPrototype [("name", .str "Speed"),
  ("port_interface_ref", .ref ⟨"PortInterfaceRef", "/I/S", "SENDER_RECEIVER_INTERFACE"⟩)]

def mode : Val Cls := .obj .PRPortPrototype [("name", .str "Mode"),
  ("port_interface_ref", .ref ⟨"PortInterfaceRef", "/I/M", "MODE_SWITCH_INTERFACE"⟩)]

def behavior : Val Cls := .obj .SwcInternalBehavior [("name", .str "B"),
  ("events", .list [.obj .InitEvent [("name", .str "DRT_Run_Speed_V")], .obj .InitEvent [("name", .str "Other")]]),
  ("runnables", .list [.obj .RunnableEntity [("name", .str "Run")]])]

def app : Val Cls := .obj .ApplicationSoftwareComponentType [("name", .str "App"),
  ("ports", .list [speed, mode]), ("internal_behavior", behavior)]

def value : Val Cls := .obj .VariableDataPrototype [("name", .str "V")]

def signal : Val Cls := .obj .SenderReceiverInterface [("name", .str "S"), ("data_elements", .list [value])]

def group : Val Cls := .obj .ModeDeclarationGroupPrototype [("name", .str "G"),
  ("type_ref", .ref ⟨"ModeDeclarationGroupRef", "/I/Modes", "MODE_DECLARATION_GROUP"⟩)]

def switch : Val Cls := .obj .ModeSwitchInterface [("name", .str "M"), ("mode_group", group)]

def modes : Val Cls := .obj .ModeDeclarationGroup [("name", .str "Modes"),
  ("mode_declarations", .list [.obj .ModeDeclaration [("name", .str "Off")],
    .obj .ModeDeclaration [("name", .str "On")]])]

def sample : Document :=
  ⟨51, [.mk [("name", .str "C")] [app] [], .mk [("name", .str "I")] [signal, switch, modes] []]⟩

/-- The behaviour knows its component; the prefix of data received events is set. -/
def known : Known where
  behavior := true
  group := fun _ => true
  settings := some fun s => if s = "data_receive_event_prefix" then some (some "DRT") else some none

theorem sample_wf : WellFormedPkgs sample.packages := by
  have h1 : WellFormed .ApplicationSoftwareComponentType app := ⟨by decide +kernel, by decide +kernel⟩
  have h2 : WellFormed .SenderReceiverInterface signal := ⟨by decide +kernel, by decide +kernel⟩
  have h3 : WellFormed .ModeSwitchInterface switch := ⟨by decide +kernel, by decide +kernel⟩
  have h4 : WellFormed .ModeDeclarationGroup modes := ⟨by decide +kernel, by decide +kernel⟩
  simp only [sample, WellFormedPkgs, WellFormedPkg, List.mem_cons, List.not_mem_nil, or_false, and_true]
  refine ⟨⟨⟨by decide +kernel, by decide +kernel⟩, ?_, by decide +kernel⟩,
    ⟨by decide +kernel, by decide +kernel⟩, ?_, by decide +kernel⟩
  · rintro v rfl
    exact ⟨_, by decide +kernel, h1⟩
  · rintro v (rfl | rfl | rfl)
    · exact ⟨_, by decide +kernel, h2⟩
    · exact ⟨_, by decide +kernel, h3⟩
    · exact ⟨_, by decide +kernel, h4⟩

theorem sample_at : ElementAt sample.packages ["C", "App"] app :=
  .mk (way := ["C"]) (.here (p := .mk [("name", .str "C")] [app] []) (by simp [sample]) rfl)
    (by simp [Pkg.elements]) rfl

theorem signal_at : ElementAt sample.packages ["I", "S"] signal :=
  .mk (way := ["I"]) (.here (p := .mk [("name", .str "I")] [signal, switch, modes] []) (by simp [sample]) rfl)
    (by simp [Pkg.elements]) rfl

/-- The data element the text names. -/
theorem sample_about : About sample.packages known ["C", "App"] app (.dataReceived "Speed/V")
    .DataReceivedEvent "data_receive_event_prefix" [speed, value]
    [("data", .obj .RVariableInAtomicSwcInstanceRef
      [("context_port", .ref ⟨"AbstractRequiredPortPrototypeRef", "/C/App/Speed", "R_PORT_PROTOTYPE"⟩),
       ("target_data_element", .ref ⟨"VariableDataPrototypeRef", "/I/S/V", "VARIABLE_DATA_PROTOTYPE"⟩)])] := by
  refine .dataReceived (pn := "Speed".toList) (en := "V".toList) (i := signal) (wayI := ["I", "S"]) ?_ ?_ ?_ ?_ ?_ ?_
  · exact .both (p := "Speed".toList) (e := "V".toList) (by decide) (by decide) (by decide)
  · exact ⟨[], [mode], rfl, ⟨.inl rfl, by show elemName speed = _; decide +kernel⟩, by simp⟩
  · exact ⟨_, rfl, rfl, signal_at, rfl⟩
  · exact .inr ⟨by decide, [], [], rfl, by show elemName value = _; decide +kernel, by simp⟩
  · exact ⟨"Speed", "R_PORT_PROTOTYPE", rfl, .require,
      congrArg (fun s => Val.ref ⟨_, s, _⟩) (by decide +kernel : "/C/App/Speed" = absRef ["C", "App", "Speed"])⟩
  · exact ⟨"V", rfl, congrArg (fun s => Val.ref ⟨_, s, _⟩) (by decide +kernel : "/I/S/V" = absRef ["I", "S", "V"])⟩

theorem sample_base : BaseName known none "data_receive_event_prefix" "Run" [speed, value]
    "DRT_Run_Speed_V".toList :=
  .inr ⟨rfl, _, "DRT", ["Speed", "V"], rfl, by simp, by decide, rfl, by decide +kernel⟩

/-- The hypotheses of the theorems hold for it. -/
example : WellFormedPkgs sample.packages ∧ (sample.packages.map Pkg.name).Nodup ∧
    ElementAt sample.packages ["C", "App"] app ∧ field app "internal_behavior" = some behavior ∧
    OneSlash (.dataReceived "Speed/V") ∧ ValuesOk (.dataReceived "Speed/V") ∧
    Plain "DRT_Run_Speed_V".toList ∧
    ∀ c key objs fs base, About sample.packages known ["C", "App"] app (.dataReceived "Speed/V") c key objs fs →
      BaseName known (some "Name".toList) key "Run" objs base → NameOk base := by
  refine ⟨sample_wf, by decide, sample_at, rfl,
    (by decide +kernel : "Speed/V".toList.count '/' ≤ 1), trivial, by decide, ?_⟩
  rintro c key objs fs base - (h | ⟨h, -⟩)
  · cases h
    exact ⟨by decide, by decide, by decide +kernel⟩
  · cases h

/-- The event is made; the one that had its name is renamed. -/
example : (createEvent Verif.Names.asciiDigits sample.packages known ["C", "App"] app behavior "Run" none
    none (.dataReceived "Speed/V")).map (fun r => r.toOption.map fun r => (elemName r.2, r.1.map fun p =>
      p.elements.map fun x => (field x "internal_behavior").map fun b => (members b "events").map elemName)) =
    some (some (some "DRT_Run_Speed_V_1", [[some [some "DRT_Run_Speed_V_0", some "Other",
      some "DRT_Run_Speed_V_1"]], [none, none, none]])) := by with_unfolding_all rfl

/-- An event on the change of a mode. -/
example : (outcome (createEvent Verif.Names.asciiDigits sample.packages known ["C", "App"] app behavior "Run"
      (some "Switch".toList) none (.modeSwitch (.text "Mode/On") (some "ON_ENTRY")))) =
    some (.ok (.obj .SwcModeSwitchEvent [("name", .str "Switch"),
      ("start_on_event", .ref ⟨"RunnableEntityRef", "/C/App/B/Run", "RUNNABLE_ENTITY"⟩),
      ("activation", .enum ⟨"ModeActivationKind", "ON_ENTRY"⟩),
      ("mode", .list [.obj .RModeInAtomicSwcInstanceRef
        [("context_port", .ref ⟨"AbstractRequiredPortPrototypeRef", "/C/App/Mode", "PR_PORT_PROTOTYPE"⟩),
         ("context_mode_declaration_group_prototype",
           .ref ⟨"ModeDeclarationGroupPrototypeRef", "/I/M/G", "MODE_DECLARATION_GROUP_PROTOTYPE"⟩),
         ("target_mode_declaration", .ref ⟨"ModeDeclarationRef", "/I/Modes/On", "MODE_DECLARATION"⟩)]])])) := by
  with_unfolding_all rfl

end Verif.Props.CodecEvent
