import Verif.Swc.EventSpec
import Verif.Swc.ConnectLemmas
import Verif.Props.Names
/-
What the event methods do, in terms of the specification.
-/
set_option linter.unusedSimpArgs false
set_option linter.unusedVariables false
namespace Verif.Swc.EventSpec
open Verif.Py Verif.Ref Verif.Swc
open Verif.Names (Name Digits makeUnique Plain)

theorem first_iff {α : Type} {l : List α} {P : α → Prop} {f : α → Bool} {x : α}
    (h : ∀ y, f y = true ↔ P y) : l.find? f = some x ↔ First l P x := by
  rw [List.find?_eq_some_iff_append]
  constructor
  · rintro ⟨hx, pre, post, rfl, hp⟩
    exact ⟨pre, post, rfl, (h x).1 hx, fun y hy hp' => by simpa [(h y).2 hp'] using hp y hy⟩
  · rintro ⟨pre, post, rfl, hx, hp⟩
    refine ⟨(h x).2 hx, pre, post, rfl, fun y hy => ?_⟩
    have := hp y hy
    rw [← h y] at this
    simpa using this

theorem runnable_iff {b : Behavior} {run : String} {r : Run} :
    findRunnable b run = some r ↔ First b.runnables (fun x => x.name = run) r :=
  first_iff (fun y => by simp)

theorem rport_iff {c : EvComp} {n : List Char} {p : EvPort} :
    findRPort c n = some p ↔ Required c n p := first_iff (fun y => by simp)

theorem pport_iff {c : EvComp} {n : List Char} {p : EvPort} :
    findPPort c n = some p ↔ Provided c n p := first_iff (fun y => by simp)

theorem chosen_iff {l : List Elem} {n : List Char} {o : Option (List Char)} {e : Elem}
    (h : o.getD [] = n) : chooseElem l o = .ok (some e) ↔ Chosen l n e := by
  unfold chooseElem Chosen
  by_cases hn : n = []
  · have ho : o = none ∨ o = some [] := by cases o <;> simp_all
    rw [if_pos ho]
    rcases l with _ | ⟨x, _ | ⟨y, l⟩⟩ <;> simp [hn]
  · have ho : ¬ (o = none ∨ o = some []) := by cases o <;> simp_all
    have ho' : o = some n := by cases o <;> simp_all
    rw [if_neg ho, ho']
    have := first_iff (l := l) (x := e) (P := fun x : Elem => x.name.toList = n)
      (f := fun e => decide (some e.name.toList = some n)) (fun y => by simp)
    simp only [Except.ok.injEq, this, hn, false_and, false_or, ne_eq, not_false_eq_true, true_and]

theorem dataIn_iff {c : EvComp} {p : EvPort} {o : Option (List Char)} {e : Elem} :
    dataElementIn c p o = .ok (some e) ↔
      c.root ≠ none ∧ ∃ l, p.iface = .ok (.senderReceiver l) ∧ Chosen l (o.getD []) e := by
  unfold dataElementIn
  rcases hr : c.root with _ | s
  · simp
  · rcases hi : p.iface with er | i
    · simp
    · cases i <;> simp [chosen_iff (n := o.getD []) rfl]

theorem opIn_iff {c : EvComp} {p : EvPort} {o : Option (List Char)} {e : Elem} :
    operationIn c p o = .ok (some e) ↔
      c.root ≠ none ∧ ∃ l, p.iface = .ok (.clientServer l) ∧ Chosen l (o.getD []) e := by
  unfold operationIn
  rcases hr : c.root with _ | s
  · simp
  · rcases hi : p.iface with er | i
    · simp
    · cases i <;> simp [chosen_iff (n := o.getD []) rfl]

theorem groupIn_iff {c : EvComp} {p : EvPort} {g : ModeProto} :
    modeGroupIn c p = .ok (some g) ↔ c.root ≠ none ∧ p.iface = .ok (.modeSwitch (some g)) := by
  unfold modeGroupIn
  rcases hr : c.root with _ | s
  · simp
  · rcases hi : p.iface with er | i
    · simp
    · cases i <;> simp

theorem strict_eq {text : String} {a b : List Char} (ha : a ≠ []) (hs : '/' ∉ a)
    (h : text.toList = a ++ b) :
    splitRefStrict (.str text) = .ok (splitL '/' text.toList) := by
  cases a with
  | nil => exact absurd rfl ha
  | cons x xs =>
    simp only [splitRefStrict, h, List.cons_append]
    rw [if_neg (by intro hx; exact hs (by simp [hx]))]

theorem strict_ok {text : String} {l : List (List Char)} (h : splitRefStrict (.str text) = .ok l) :
    l = splitL '/' text.toList ∧ ∀ a, l.head? = some a → a ≠ [] := by
  simp only [splitRefStrict] at h
  split at h
  · simp at h
  · rename_i x xs hx
    split at h
    · simp at h
    · rename_i hc
      cases h
      refine ⟨by rw [hx], fun a ha he => ?_⟩
      subst he
      have hj := joinL_splitL '/' (x :: xs)
      cases hsp : splitL '/' (x :: xs) with
      | nil => simp [hsp] at ha
      | cons w ws =>
        rw [hsp] at ha hj
        simp only [List.head?_cons, Option.some.injEq] at ha
        subst ha
        cases ws with
        | nil => simp [joinL] at hj
        | cons v ws =>
          simp only [joinL, List.nil_append, List.cons.injEq] at hj
          exact hc hj.1.symm

theorem count_split {l a b r : List Char} {rest : List (List Char)}
    (h : splitL '/' l = a :: b :: r :: rest) : 2 ≤ l.count '/' := by
  have hj := joinL_splitL '/' l
  rw [h] at hj
  rw [← hj]
  simp only [joinL, List.count_append, List.count_cons, beq_self_eq_true, if_true]
  omega

theorem parts_ok {text : String} {pn : List Char} {en : Option (List Char)}
    (h : portParts text = .ok (pn, en)) (h1 : text.toList.count '/' ≤ 1) :
    Means text.toList pn (en.getD []) := by
  unfold portParts at h
  split at h
  · simp at h
  · rename_i a hs
    cases h
    obtain ⟨hl, hne⟩ := strict_ok hs
    obtain ⟨ht, hn⟩ := splitL_one hl.symm
    rw [ht]
    exact .port (hne _ rfl) hn
  · rename_i a b rest hs
    cases h
    obtain ⟨hl, hne⟩ := strict_ok hs
    cases rest with
    | nil =>
      obtain ⟨ht, hn, hn'⟩ := splitL_two hl.symm
      rw [ht]
      exact .both (hne _ rfl) hn hn'
    | cons r rest => have := count_split hl.symm; omega
  · simp at h

theorem parts_of {text : String} {pn en : List Char} (h : Means text.toList pn en) :
    ∃ o : Option (List Char), portParts text = .ok (pn, o) ∧ o.getD [] = en := by
  generalize ht : text.toList = t at h
  cases h with
  | port h0 hn =>
    refine ⟨none, ?_, rfl⟩
    have := strict_eq (b := []) h0 hn (by simpa using ht)
    rw [ht, splitL_no_sep _ _ hn] at this
    simp [portParts, this]
  | both h0 hn hn' =>
    refine ⟨some en, ?_, rfl⟩
    have := strict_eq h0 hn ht
    rw [ht, splitL_append _ _ _ hn, splitL_no_sep _ _ hn'] at this
    simp [portParts, this]

theorem modeArgs_iff {c : EvComp} (hr : c.root ≠ none) {text : String}
    {m : String × Option String × String} : modeArgs c text = .ok m ↔ Mode c text.toList m := by
  constructor
  · intro h
    unfold modeArgs at h
    split at h
    · simp at h
    · rename_i pn mn hs
      obtain ⟨hl, hne⟩ := strict_ok hs
      obtain ⟨ht, hn, hn'⟩ := splitL_two hl.symm
      split at h
      · simp at h
      · rename_i p hp
        split at h
        · simp at h
        · simp at h
        · rename_i g hg
          split at h
          · simp at h
          · rename_i items hi
            split at h
            · simp at h
            · rename_i mr hm
              unfold modeRef at hm
              split at hm
              · rename_i e he
                cases h
                cases hm
                rw [ht]
                exact .mk (hne _ rfl) hn hn' (rport_iff.1 hp) (groupIn_iff.1 hg).2 hi
                  ((first_iff (fun y => by simp)).1 he)
              · split at hm <;> simp at hm
    · simp at h
  · intro h
    generalize ht : text.toList = t at h
    cases h with
    | @mk pn mn p g items e h0 hn hn' hp hi hg he =>
      have := strict_eq h0 hn ht
      rw [ht, splitL_append _ _ _ hn, splitL_no_sep _ _ hn'] at this
      have he' : items.modes.find? (fun e => decide (e.name.toList = mn)) = some e :=
        (first_iff (fun y => by simp)).2 he
      simp [modeArgs, this, rport_iff.2 hp, groupIn_iff.2 ⟨hr, hi⟩, hg, modeRef, he']

theorem mode_ne {c : EvComp} {text : String} {m : String × Option String × String}
    (h : Mode c text.toList m) : text ≠ "" := by
  rintro rfl
  generalize ht : "".toList = t at h
  cases h with
  | mk h0 _ _ _ _ _ _ =>
    have := congrArg List.length ht
    simp at this

theorem join_eq (l : List String) :
    joinL '_' (l.map String.toList) = (String.intercalate "_" l).toList := by
  rw [String.toList_intercalate]
  induction l with
  | nil => rfl
  | cons a l ih =>
    cases l with
    | nil => simp [joinL, List.intercalate]
    | cons b l =>
      simp only [List.map_cons, joinL] at ih ⊢
      rw [ih]
      simp [List.intercalate]

theorem base_iff {b : Behavior} {given : Option Name} {key run : String} {parts : List String}
    {base : Name} : eventBase b given key (run :: parts) = .ok base ↔
      BaseName b.swc given key run parts base := by
  unfold BaseName
  cases given with
  | some n => simp [eventBase]
  | none =>
    simp only [reduceCtorEq, false_or, true_and]
    constructor
    · intro h
      simp only [eventBase, settingsOf] at h
      rcases hs : b.swc with _ | c
      · simp [hs] at h
      · rcases hr : c.root with _ | _ | s
        · simp [hs, hr] at h
        · simp [hs, hr] at h
        · simp only [hs, hr] at h
          rcases hk : s key with _ | _ | p
          · simp [hk] at h
          · simp [hk] at h
          · simp only [hk] at h
            split at h
            · simp at h
            · rename_i hp
              refine ⟨c, s, p, rfl, hr, hk, hp, ?_⟩
              have := join_eq (p :: run :: parts)
              simp only [List.map_cons, Except.ok.injEq] at this h
              rw [← this, h]
    · rintro ⟨c, s, p, hs, hr, hk, hp, rfl⟩
      simp only [eventBase, settingsOf, hs, hr, hk]
      rw [if_neg hp]
      have := join_eq (p :: run :: parts)
      simp only [List.map_cons] at this ⊢
      rw [this]

/-- The methods up to the choice of the name. -/
inductive Begun (b : Behavior) (run : String) (given : Option Name) (extra : Option PyErr) :
    Request → Name → EventKind → Option String → Except PyErr EvTarget → Prop
  | wants {req kind key parts t r base} : findRunnable b run = some r →
      Wants b.swc req kind key parts t → (∀ a o, req ≠ .modeSwitch a o) →
      BaseName b.swc given key run parts base →
      Begun b run given extra req base kind r.ref (constructed extra t)
  | mode {arg a c r base} : findRunnable b run = some r → b.swc = some c → c.root ≠ none →
      BaseName b.swc given "swc_mode_switch_event_prefix" run [] base →
      Begun b run given extra (.modeSwitch arg a) base .modeSwitch r.ref (modesOf c extra a arg)

theorem Begun.name {b : Behavior} {run : String} {given : Option Name} {extra : Option PyErr}
    {req : Request} {base : Name} {kind : EventKind} {start : Option String}
    {made : Except PyErr EvTarget} (h : Begun b run given extra req base kind start made) :
    NameOf b.swc given run req base := by
  cases h with
  | wants _ hw _ hb => exact .wants hw hb
  | mode _ _ _ hb => exact .mode hb

theorem create_begun {D : Digits} {b : Behavior} {run : String} {given : Option Name}
    {extra : Option PyErr} {req : Request} (h1 : OneSlash req) :
    (∃ e, createEvent D b run given extra req = some (b.events, .error e)) ∨
    ∃ base kind start made, Begun b run given extra req base kind start made ∧
      createEvent D b run given extra req = finishEvent D b base kind start made := by
  have plain : ∀ {req kind key t}, Wants b.swc req kind key [] t →
      (∀ a o, req ≠ .modeSwitch a o) →
      (∃ e, createPlain D b run given extra key kind t = some (b.events, .error e)) ∨
      ∃ base kind' start made, Begun b run given extra req base kind' start made ∧
        createPlain D b run given extra key kind t = finishEvent D b base kind' start made := by
    intro req kind key t hw hm
    unfold createPlain
    rcases hr : findRunnable b run with _ | r
    · exact .inl ⟨_, rfl⟩
    · rcases hb : eventBase b given key [run] with e | base
      · exact .inl ⟨e, by simp [hb]⟩
      · exact .inr ⟨base, kind, r.ref, _, .wants hr hw hm (base_iff.1 hb), by simp [hb]⟩
  have onPort : ∀ {req kind key text findPort elemIn t},
      text.toList.count '/' ≤ 1 → (∀ a o, req ≠ .modeSwitch a o) →
      (∀ c pn en p e, b.swc = some c → Means text.toList pn (en.getD []) →
        findPort c pn = some p → elemIn c p en = .ok (some e) →
        Wants b.swc req kind key [p.name, e.name] (t p.ref e.ref)) →
      (∃ e, createOnPort D b run given extra key kind text findPort elemIn t =
        some (b.events, .error e)) ∨
      ∃ base kind' start made, Begun b run given extra req base kind' start made ∧
        createOnPort D b run given extra key kind text findPort elemIn t =
          finishEvent D b base kind' start made := by
    intro req kind key text findPort elemIn t hc hm hw
    unfold createOnPort
    rcases hs : b.swc with _ | c
    · exact .inl ⟨_, rfl⟩
    · rcases hr : findRunnable b run with _ | r
      · exact .inl ⟨.keyError, by simp⟩
      · rcases hpp : portParts text with e | ⟨pn, en⟩
        · exact .inl ⟨e, by simp⟩
        · rcases hp : findPort c pn with _ | p
          · exact .inl ⟨_, by simp [hp]; rfl⟩
          · rcases he : elemIn c p en with e | _ | e
            · exact .inl ⟨e, by simp [hp, he]⟩
            · exact .inl ⟨_, by simp [hp, he]; rfl⟩
            · rcases hb : eventBase b given key [run, p.name, e.name] with er | base
              · exact .inl ⟨er, by simp [hp, he, hb]⟩
              · exact .inr ⟨base, kind, r.ref, _,
                  .wants hr (hw c pn en p e hs (parts_ok hpp hc) hp he) hm (base_iff.1 hb),
                  by simp [hp, he, hb]⟩
  cases req with
  | background => exact plain .background (by simp)
  | init => exact plain .init (by simp)
  | timing period offset => exact plain .timing (by simp)
  | dataSendCompleted => exact .inl ⟨_, rfl⟩
  | dataWriteCompleted => exact .inl ⟨_, rfl⟩
  | dataReceiveError text =>
    refine onPort h1 (by simp) fun c pn en p e hs hm hp he => ?_
    obtain ⟨hr, l, hi, hch⟩ := dataIn_iff.1 he
    exact .dataReceiveError hs hr hm (rport_iff.1 hp) hi hch
  | dataReceived text =>
    refine onPort h1 (by simp) fun c pn en p e hs hm hp he => ?_
    obtain ⟨hr, l, hi, hch⟩ := dataIn_iff.1 he
    exact .dataReceived hs hr hm (rport_iff.1 hp) hi hch
  | operationInvoked text =>
    refine onPort h1 (by simp) fun c pn en p e hs hm hp he => ?_
    obtain ⟨hr, l, hi, hch⟩ := opIn_iff.1 he
    exact .operationInvoked hs hr hm (pport_iff.1 hp) hi hch
  | modeManagerError port =>
    simp only [createEvent, createManagerError]
    rcases hs : b.swc with _ | c
    · exact .inl ⟨_, rfl⟩
    · rcases hr : findRunnable b run with _ | r
      · exact .inl ⟨_, by simp; rfl⟩
      · rcases hp : findPPort c port.toList with _ | p
        · exact .inl ⟨.valueError, by simp [hp]⟩
        · rcases hg : modeGroupIn c p with e | _ | g
          · exact .inl ⟨e, by simp [hp, hg]⟩
          · exact .inl ⟨.valueError, by simp [hp, hg]⟩
          · obtain ⟨hroot, hi⟩ := groupIn_iff.1 hg
            rcases hb : eventBase b given "swc_mode_manager_error_event_prefix"
              [run, p.name, g.name] with er | base
            · exact .inl ⟨er, by simp [hb, hp, hg]⟩
            · exact .inr ⟨base, _, r.ref, _,
                .wants hr (.modeManagerError hs hroot (pport_iff.1 hp) hi) (by simp) (base_iff.1 hb),
                by simp [hb, hp, hg]⟩
  | modeSwitch arg a =>
    simp only [createEvent, createModeSwitch]
    rcases hs : b.swc with _ | c
    · exact .inl ⟨_, rfl⟩
    · rcases hroot : c.root with _ | s
      · exact .inl ⟨_, by simp [hroot]; rfl⟩
      · rcases hr : findRunnable b run with _ | r
        · exact .inl ⟨_, by simp [hroot]; rfl⟩
        · rcases hb : eventBase b given "swc_mode_switch_event_prefix" [run] with er | base
          · exact .inl ⟨er, by simp [hb, hroot]⟩
          · exact .inr ⟨base, _, r.ref, _, .mode hr hs (by simp [hroot]) (base_iff.1 hb),
              by simp [hb, hroot]⟩

theorem modesOf_ok {c : EvComp} {a : Option String} {extra : Option PyErr} {arg : ModeArg}
    {t : EvTarget} {swc : Option EvComp} (hs : swc = some c) (hr : c.root ≠ none)
    (h : modesOf c extra a arg = .ok t) :
    Wants swc (.modeSwitch arg a) .modeSwitch "swc_mode_switch_event_prefix" [] t := by
  have con : ∀ {x : EvTarget}, constructed extra x = .ok t → x = t := by
    intro x hx; unfold constructed at hx; cases extra <;> simp_all
  cases arg with
  | text s =>
    simp only [modesOf] at h
    split at h
    · simp at h
    · split at h
      · simp at h
      · rename_i m hm
        rw [← con h]
        exact .mode hs hr ((modeArgs_iff hr).1 hm)
  | list l =>
    simp only [modesOf] at h
    split at h
    · simp at h
    · rename_i hl
      split at h
      · simp at h
      · rename_i ms hms
        rw [← con h]
        rcases l with _ | ⟨x, _ | ⟨y, _ | ⟨z, l⟩⟩⟩ <;> simp at hl
        rcases x with _ | x
        · simp [modeList] at hms
        rcases y with _ | y
        · simp only [modeList] at hms
          split at hms
          · simp at hms
          · split at hms <;> simp at hms
        simp only [modeList] at hms
        split at hms
        · simp at hms
        · split at hms
          · simp at hms
          · rename_i m hm
            split at hms
            · simp at hms
            · rename_i ms' hms'
              cases hms
              split at hms'
              · simp at hms'
              · split at hms'
                · simp at hms'
                · rename_i m' hm'
                  cases hms'
                  exact .transition hs hr ((modeArgs_iff hr).1 hm) ((modeArgs_iff hr).1 hm')
  | other => simp [modesOf] at h

/-- Renaming leaves the rest alone. -/
theorem rename_same {l : List Event} {names : List Name} (h : names.length = l.length) :
    (rename l names).length = l.length ∧ (rename l names).map (·.name) = names ∧
    ∀ (i : Nat) e e', l[i]? = some e → (rename l names)[i]? = some e' → Same e e' := by
  unfold rename
  refine ⟨by simp [h], ?_, ?_⟩
  · induction l generalizing names with
    | nil => cases names <;> simp_all
    | cons x l ih =>
      cases names with
      | nil => simp at h
      | cons n names => simpa using ih (by simpa using h)
  · intro i e e' he he'
    rw [List.getElem?_zipWith] at he'
    rw [he] at he'
    cases hn : names[i]? with
    | none => simp [hn] at he'
    | some n =>
      simp only [hn, Option.some.injEq] at he'
      subst he'
      exact ⟨rfl, rfl, rfl⟩

theorem rename_self (l : List Event) : rename l (l.map (·.name)) = l := by
  unfold rename
  induction l with
  | nil => rfl
  | cons x l ih => simp [ih]

end Verif.Swc.EventSpec
