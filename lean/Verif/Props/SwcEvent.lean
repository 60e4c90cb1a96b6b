import Verif.Swc.EventLemmas
/-
C55: events refer to what they were asked for.
-/
set_option linter.unusedSimpArgs false
namespace Verif.Props.SwcEvent
open Verif.Py Verif.Ref Verif.Swc Verif.Swc.EventSpec
open Verif.Names (Name Digits makeUnique Plain asciiDigits EventOp eventStep)
open Verif.Props.Names (numbered C10_fresh_partial C10_effect_partial)

theorem finish_ok {D : Digits} {b : Behavior} {base : Name} {kind : EventKind}
    {start : Option String} {made : Except PyErr EvTarget} {evs : List Event} {ev : Event}
    (h : finishEvent D b base kind start made = some (evs, .ok ev)) :
    ∃ names u t, makeUnique D (b.events.map (·.name)) base = some (names, u) ∧ made = .ok t ∧
      ev = ⟨kind, u, start, t⟩ ∧ evs = rename b.events names ++ [ev] := by
  unfold finishEvent at h
  split at h
  · simp at h
  · rename_i names u hu
    split at h
    · simp at h
    · rename_i t
      simp only [Option.some.injEq, Prod.mk.injEq, Except.ok.injEq] at h
      exact ⟨names, u, t, hu, rfl, h.2.symm, by rw [← h.1, h.2]⟩

theorem begun_ok {b : Behavior} {run : String} {given : Option Name} {extra : Option PyErr}
    {req : Request} {base : Name} {kind : EventKind} {start : Option String}
    {made : Except PyErr EvTarget} {t : EvTarget}
    (h : Begun b run given extra req base kind start made) (ht : made = .ok t) :
    ∃ r key parts, First b.runnables (fun x => x.name = run) r ∧ start = r.ref ∧
      Wants b.swc req kind key parts t ∧ BaseName b.swc given key run parts base := by
  cases h with
  | @wants _ _ key parts t' r _ hr hw hm hb =>
    have : t' = t := by unfold constructed at ht; cases extra <;> simp_all
    subst this
    exact ⟨r, key, parts, runnable_iff.1 hr, rfl, hw, hb⟩
  | @mode arg a c r _ hr hs hroot hb =>
    exact ⟨r, _, _, runnable_iff.1 hr, rfl, modesOf_ok hs hroot ht, hb⟩

theorem unique_length {D : Digits} {l names : List Name} {base u : Name}
    (hp : Plain base) (h : makeUnique D l base = some (names, u)) : names.length = l.length := by
  obtain ⟨n', u', h', h0, h1, -⟩ := C10_effect_partial D l base hp
  rw [h] at h'
  cases h'
  by_cases hb : base ∈ l
  · obtain ⟨p, s, rfl, -, rfl⟩ := h1 hb
    simp
  · rw [h0 hb]

/-- C55: an event that was created starts the runnable of the given name, is of the class asked for,
and refers to the port and the element, operation, mode group or modes that the text given for it
names in the component (or, where the text names only a port, to the only element or operation
there).  It is added behind the other events.  These keep class, runnable and what they refer to; at
most one is renamed, namely the last one that has the very name chosen for the new event.  The new
event has a name none of them has: the name given, or prefix, runnable, port and element joined by
underscores, numbered if necessary.  Partial: texts with more than one slash are excluded
(`C55_rest_ignored`), and names with characters special in regular expressions. -/
theorem C55_created_partial {D : Digits} {b : Behavior} {run : String} {given : Option Name}
    {extra : Option PyErr} {req : Request} {evs : List Event} {ev : Event}
    (h1 : OneSlash req) (h : createEvent D b run given extra req = some (evs, .ok ev))
    (hp : ∀ base, NameOf b.swc given run req base → Plain base) :
    ∃ r key parts base evs',
      First b.runnables (fun x => x.name = run) r ∧ ev.start = r.ref ∧
      Wants b.swc req ev.kind key parts ev.target ∧
      BaseName b.swc given key run parts base ∧
      evs = evs' ++ [ev] ∧ evs'.length = b.events.length ∧
      (∀ (i : Nat) e e', b.events[i]? = some e → evs'[i]? = some e' → Same e e') ∧
      ev.name ∉ evs'.map (·.name) ∧
      ((ev.name = base ∧ base ∉ b.events.map (·.name)) ∨ ∃ k, ev.name = numbered base (k + 1)) ∧
      (base ∉ b.events.map (·.name) → evs' = b.events) ∧
      (base ∈ b.events.map (·.name) → ∃ p s, b.events.map (·.name) = p ++ base :: s ∧ base ∉ s ∧
        evs'.map (·.name) = p ++ numbered base 0 :: s) := by
  rcases create_begun (D := D) (b := b) (run := run) (given := given) (extra := extra) h1 with
    ⟨e, he⟩ | ⟨base, kind, start, made, hb, he⟩
  · rw [he] at h; simp at h
  · rw [he] at h
    obtain ⟨names, u, t, hu, hm, rfl, rfl⟩ := finish_ok h
    obtain ⟨r, key, parts, hr, hst, hw, hbase⟩ := begun_ok hb hm
    have hpl := hp _ (.wants hw hbase)
    have hlen := unique_length hpl hu
    rw [List.length_map] at hlen
    obtain ⟨hl, hn, hsame⟩ := rename_same hlen
    obtain ⟨n', u', hu', hfresh⟩ := C10_fresh_partial D (b.events.map (·.name)) base hpl
    rw [hu] at hu'; cases hu'
    obtain ⟨n', u', hu', h0, h1', h2⟩ := C10_effect_partial D (b.events.map (·.name)) base hpl
    rw [hu] at hu'; cases hu'
    refine ⟨r, key, parts, base, rename b.events names, hr, hst, hw, hbase, rfl, hl, hsame, ?_, h2, ?_, ?_⟩
    · rw [hn]; exact hfresh
    · intro hb'; rw [h0 hb', rename_self]
    · intro hb'; rw [hn]; exact h1' hb'

theorem first_unique {α : Type} {l : List α} {P : α → Prop} {x y : α}
    (hx : First l P x) (hy : First l P y) : x = y := by
  classical
  have h : ∀ z, (decide (P z)) = true ↔ P z := by simp
  have h1 := (first_iff (f := fun z => decide (P z)) h).2 hx
  have h2 := (first_iff (f := fun z => decide (P z)) h).2 hy
  rw [h1] at h2
  exact Option.some.inj h2

/-- C55: what can be asked for can be had: if the runnable, the port and the element, operation,
group or mode are there and the name is available, the event is created (the remaining arguments
being accepted by its constructor). -/
theorem C55_possible {D : Digits} {b : Behavior} {run : String} {given : Option Name}
    {req : Request} {kind : EventKind} {key : String} {parts : List String} {t : EvTarget} {r : Run}
    {base : Name} (hr : First b.runnables (fun x => x.name = run) r)
    (hw : Wants b.swc req kind key parts t) (hb : BaseName b.swc given key run parts base)
    (hp : Plain base) :
    ∃ evs u, createEvent D b run given none req = some (evs, .ok ⟨kind, u, r.ref, t⟩) := by
  obtain ⟨names, u, hu, -⟩ := C10_fresh_partial D (b.events.map (·.name)) base hp
  have fin : ∀ {k s t}, ∃ evs u, finishEvent D b base k s (.ok t) =
      some (evs, .ok ⟨k, u, s, t⟩) := fun {k s t} =>
    ⟨_, u, by unfold finishEvent; rw [hu]⟩
  have hr' := runnable_iff.2 hr
  have hb' := base_iff.2 hb
  cases hw with
  | background => simpa [createEvent, createPlain, hr', hb', constructed] using fin
  | init => simpa [createEvent, createPlain, hr', hb', constructed] using fin
  | timing => simpa [createEvent, createPlain, hr', hb', constructed] using fin
  | dataReceiveError hs hroot hm hp hi hc =>
    obtain ⟨o, ho, hoe⟩ := parts_of hm
    have he := dataIn_iff.2 ⟨hroot, _, hi, hoe ▸ hc⟩
    simpa [createEvent, createOnPort, hs, hr', ho, rport_iff.2 hp, he, hb', constructed] using fin
  | dataReceived hs hroot hm hp hi hc =>
    obtain ⟨o, ho, hoe⟩ := parts_of hm
    have he := dataIn_iff.2 ⟨hroot, _, hi, hoe ▸ hc⟩
    simpa [createEvent, createOnPort, hs, hr', ho, rport_iff.2 hp, he, hb', constructed] using fin
  | operationInvoked hs hroot hm hp hi hc =>
    obtain ⟨o, ho, hoe⟩ := parts_of hm
    have he := opIn_iff.2 ⟨hroot, _, hi, hoe ▸ hc⟩
    simpa [createEvent, createOnPort, hs, hr', ho, pport_iff.2 hp, he, hb', constructed] using fin
  | modeManagerError hs hroot hp hi =>
    have he := groupIn_iff.2 ⟨hroot, hi⟩
    simpa [createEvent, createManagerError, hs, hr', pport_iff.2 hp, he, hb', constructed] using fin
  | @mode text a c m hs hroot hm =>
    have he := (modeArgs_iff hroot).2 hm
    have hn : c.root.isNone = false := by cases hc : c.root <;> simp_all
    simpa [createEvent, createModeSwitch, modesOf, hs, hn, hr', hb', mode_ne hm, he,
      constructed] using fin
  | @transition text text' a c m m' hs hroot hm hm' =>
    have he := (modeArgs_iff hroot).2 hm
    have he' := (modeArgs_iff hroot).2 hm'
    have hn : c.root.isNone = false := by cases hc : c.root <;> simp_all
    simpa [createEvent, createModeSwitch, modesOf, modeList, hs, hn, hr', hb', mode_ne hm,
      mode_ne hm', he, he', constructed] using fin

/-- C55: a call that raises adds no event and changes none apart from its name; and it changes
nothing at all unless it is the constructor that raises (for the remaining arguments) or the event
is a mode switch event.  Partial: see `C55_failed_counterexample` for these. -/
theorem C55_failed_partial {D : Digits} {b : Behavior} {run : String} {given : Option Name}
    {extra : Option PyErr} {req : Request} {evs : List Event} {e : PyErr}
    (h1 : OneSlash req) (h : createEvent D b run given extra req = some (evs, .error e))
    (hp : ∀ base, NameOf b.swc given run req base → Plain base) :
    (evs.length = b.events.length ∧
      ∀ (i : Nat) x x', b.events[i]? = some x → evs[i]? = some x' → Same x x') ∧
    (extra = none → (∀ arg a, req ≠ .modeSwitch arg a) → evs = b.events) := by
  have same : ∀ (i : Nat) (x x' : Event), b.events[i]? = some x → b.events[i]? = some x' →
      Same x x' := by
    intro i x x' hx hx'; rw [hx] at hx'; cases hx'; exact ⟨rfl, rfl, rfl⟩
  rcases create_begun (D := D) (b := b) (run := run) (given := given) (extra := extra) h1 with
    ⟨e, he⟩ | ⟨base, kind, start, made, hb, he⟩
  · rw [he] at h
    simp only [Option.some.injEq, Prod.mk.injEq] at h
    rw [← h.1]
    exact ⟨⟨rfl, same⟩, fun _ _ => rfl⟩
  · rw [he] at h
    unfold finishEvent at h
    split at h
    · simp at h
    · rename_i names u hu
      split at h
      · rename_i er
        simp only [Option.some.injEq, Prod.mk.injEq] at h
        generalize hmade : (Except.error er : Except PyErr EvTarget) = made at hb
        have hpl : Plain base := hp _ hb.name
        have hlen := unique_length hpl hu
        rw [List.length_map] at hlen
        obtain ⟨hl, -, hsame⟩ := rename_same hlen
        rw [← h.1]
        refine ⟨⟨hl, hsame⟩, fun hx hm => ?_⟩
        cases hb with
        | wants => subst hx; simp [constructed] at hmade
        | mode => exact absurd rfl (hm _ _)
      · simp at h

/-- The requests made of a behaviour one after the other; what raises is caught. -/
def runAll (D : Digits) : Behavior → List (String × Option Name × Option PyErr × Request) →
    Option Behavior
  | b, [] => some b
  | b, (run, given, extra, req) :: rest =>
    match createEvent D b run given extra req with
    | none => none
    | some (evs, _) => runAll D { b with events := evs } rest

theorem step_names {D : Digits} {b : Behavior} {run : String} {given : Option Name}
    {extra : Option PyErr} {req : Request} (h1 : OneSlash req)
    (hp : ∀ base, NameOf b.swc given run req base → Plain base) :
    ∃ evs res, createEvent D b run given extra req = some (evs, res) ∧
      (evs.map (·.name) = b.events.map (·.name) ∨
        ∃ base op, NameOf b.swc given run req base ∧
          (op = .create base ∨ op = .failed base) ∧
          eventStep D (b.events.map (·.name)) op = some (evs.map (·.name))) := by
  rcases create_begun (D := D) (b := b) (run := run) (given := given) (extra := extra) h1 with
    ⟨e, he⟩ | ⟨base, kind, start, made, hb, he⟩
  · exact ⟨_, _, he, .inl rfl⟩
  · have hbase := hb.name
    have hpl := hp _ hbase
    obtain ⟨names, u, hu, -⟩ := C10_fresh_partial D (b.events.map (·.name)) base hpl
    have hlen := unique_length hpl hu
    rw [List.length_map] at hlen
    obtain ⟨-, hn, -⟩ := rename_same hlen
    cases made with
    | error er =>
      exact ⟨rename b.events names, .error er, by rw [he]; simp [finishEvent, hu],
        .inr ⟨base, .failed base, hbase, .inr rfl, by simp [eventStep, hu, hn]⟩⟩
    | ok t =>
      exact ⟨rename b.events names ++ [⟨kind, u, start, t⟩], .ok ⟨kind, u, start, t⟩,
        by rw [he]; simp [finishEvent, hu],
        .inr ⟨base, .create base, hbase, .inl rfl, by simp [eventStep, hu, hn]⟩⟩

/-- C55: the events of a behaviour have different names after any sequence of requests, whether they
succeed or raise, as long as no name asked for ends in `_0` (C11). -/
theorem C55_distinct_partial {D : Digits} (b : Behavior) (h0 : b.events = [])
    (reqs : List (String × Option Name × Option PyErr × Request))
    (h1 : ∀ q ∈ reqs, OneSlash q.2.2.2)
    (hp : ∀ q ∈ reqs, ∀ base, NameOf b.swc q.2.1 q.1 q.2.2.2 base →
      Plain base ∧ ¬ ∃ c, base = c ++ "_0".toList) :
    ∃ b', runAll D b reqs = some b' ∧ (b'.events.map (·.name)).Nodup := by
  have H : ∀ (reqs : List (String × Option Name × Option PyErr × Request)) (c : Behavior),
      c.swc = b.swc → Verif.Names.Good (c.events.map (·.name)) →
      (∀ q ∈ reqs, OneSlash q.2.2.2) →
      (∀ q ∈ reqs, ∀ base, NameOf b.swc q.2.1 q.1 q.2.2.2 base →
        Plain base ∧ ¬ ∃ c, base = c ++ "_0".toList) →
      ∃ b', runAll D c reqs = some b' ∧ Verif.Names.Good (b'.events.map (·.name)) := by
    intro reqs
    induction reqs with
    | nil => intro c _ hg _ _; exact ⟨c, rfl, hg⟩
    | cons q rest ih =>
      intro c hs hg h1 hp
      obtain ⟨run, given, extra, req⟩ := q
      have hp0 := hp _ List.mem_cons_self
      have h10 := h1 _ List.mem_cons_self
      simp only at hp0 h10
      rw [← hs] at hp0
      obtain ⟨evs, res, he, hc⟩ := step_names (D := D) (b := c) (run := run) (given := given)
        (extra := extra) h10 (fun base hb => (hp0 base hb).1)
      have hg' : Verif.Names.Good (evs.map (·.name)) := by
        rcases hc with hc | ⟨base, op, hb, hop, hst⟩
        · rw [hc]; exact hg
        · obtain ⟨L, hL, hgL⟩ := Verif.Names.good_step D hg op base hop (hp0 _ hb).1
            (hp0 _ hb).2
          rw [hst] at hL; cases hL; exact hgL
      obtain ⟨b', hb', hgb⟩ := ih { c with events := evs } hs hg'
        (fun q hq => h1 q (by simp [hq])) (fun q hq => hp q (by simp [hq]))
      exact ⟨b', by simp [runAll, he, hb'], hgb⟩
  obtain ⟨b', hb, hg⟩ := H reqs b rfl (by rw [h0]; exact Verif.Names.good_nil) h1 hp
  exact ⟨b', hb, hg.1⟩

/-! ### Concrete cases and findings -/

/-- A component with a sender-receiver port of two elements, a client-server port of one operation
and a mode port. -/
def comp : EvComp where
  ports := [⟨"Speed", .r, "/C/App/Speed", .ok (.senderReceiver [⟨"V", "/I/S/V"⟩, ⟨"Ok", "/I/S/Ok"⟩])⟩,
    ⟨"Calc", .p, "/C/App/Calc", .ok (.clientServer [⟨"Add", "/I/C/Add"⟩])⟩,
    ⟨"Mode", .r, "/C/App/Mode", .ok (.modeSwitch (some ⟨"M", some "/I/M/M",
      .ok ⟨[⟨"ON", "/D/G/ON"⟩, ⟨"OFF", "/D/G/OFF"⟩], ["Up"]⟩⟩))⟩]
  root := some (some fun k => if k = "data_receive_event_prefix" then some (some "DRT") else some none)

/-- Its behaviour with one event. -/
def beh : Behavior where
  runnables := [⟨"Init", some "/C/App/B/Init"⟩, ⟨"Run", some "/C/App/B/Run"⟩]
  swc := some comp
  events := [⟨.background, "MST".toList, some "/C/App/B/Init", .nothing⟩]

example : createEvent asciiDigits beh "Run" none none (.dataReceived "Speed/Ok") =
    some (beh.events ++ [⟨.dataReceived, "DRT_Run_Speed_Ok".toList, some "/C/App/B/Run",
        .data "/C/App/Speed" "/I/S/Ok"⟩],
      .ok ⟨.dataReceived, "DRT_Run_Speed_Ok".toList, some "/C/App/B/Run",
        .data "/C/App/Speed" "/I/S/Ok"⟩) := by decide +kernel

example : createEvent asciiDigits beh "Run" (some "Op".toList) none (.operationInvoked "Calc") =
    some (beh.events ++ [⟨.operationInvoked, "Op".toList, some "/C/App/B/Run",
        .operation "/C/App/Calc" "/I/C/Add"⟩],
      .ok ⟨.operationInvoked, "Op".toList, some "/C/App/B/Run",
        .operation "/C/App/Calc" "/I/C/Add"⟩) := by decide +kernel

/-- The names that a request for `Speed/Ok` may lead to have no special characters. -/
example : ∀ base, NameOf beh.swc none "Run" (.dataReceived "Speed/Ok") base → Plain base := by
  intro base h
  have key : ∀ {kind key parts t},
      Wants beh.swc (.dataReceived "Speed/Ok") kind key parts t →
      BaseName beh.swc none key "Run" parts base → base = "DRT_Run_Speed_Ok".toList := by
    intro kind key parts t hw hb
    obtain ⟨evs, u, he⟩ := C55_possible (D := asciiDigits) (b := beh) (run := "Run")
      (r := ⟨"Run", some "/C/App/B/Run"⟩) (given := some ['x'])
      ⟨[⟨"Init", some "/C/App/B/Init"⟩], [], rfl, rfl, by simp⟩ hw (.inl rfl) (by decide)
    cases hw with
    | @dataReceived _ c pn en p l e hs hroot hm hp hi hc =>
      have hev : (createEvent asciiDigits beh "Run" (some ['x']) none (.dataReceived "Speed/Ok")) =
          some (beh.events ++ [⟨.dataReceived, ['x'], some "/C/App/B/Run",
              .data "/C/App/Speed" "/I/S/Ok"⟩],
            .ok ⟨.dataReceived, ['x'], some "/C/App/B/Run", .data "/C/App/Speed" "/I/S/Ok"⟩) := by
        decide +kernel
      rw [hev] at he
      simp only [Option.some.injEq, Prod.mk.injEq, Except.ok.injEq, Event.mk.injEq,
        EvTarget.data.injEq] at he
      have hpm : p ∈ comp.ports := by
        cases hs; obtain ⟨pre, post, h, -⟩ := hp; rw [h]; simp
      have hpn : p = ⟨"Speed", .r, "/C/App/Speed",
          .ok (.senderReceiver [⟨"V", "/I/S/V"⟩, ⟨"Ok", "/I/S/Ok"⟩])⟩ := by
        simp only [comp, List.mem_cons, List.not_mem_nil, or_false] at hpm
        rcases hpm with rfl | rfl | rfl
        · rfl
        · simp at he
        · simp at he
      subst hpn
      simp only [Except.ok.injEq, EvIface.senderReceiver.injEq] at hi
      have hem : e ∈ l := by
        rcases hc with ⟨-, h⟩ | ⟨-, pre, post, h, -⟩ <;> rw [h] <;> simp
      subst hi
      have hen : e = ⟨"Ok", "/I/S/Ok"⟩ := by
        simp only [List.mem_cons, List.not_mem_nil, or_false] at hem
        rcases hem with rfl | rfl
        · simp at he
        · rfl
      subst hen
      rcases hb with hb | ⟨-, c', s, q, hs', hr', hk, -, rfl⟩
      · simp at hb
      · have : c' = comp := by simpa [beh, eq_comm] using hs'
        subst this
        simp only [comp, Option.some.injEq] at hr'
        subst hr'
        simp only [if_true, Option.some.injEq] at hk
        subst hk
        decide +kernel
  cases h with
  | wants hw hb => rw [key hw hb]; decide

/-- The port is not named alone where there are two elements. -/
example : createEvent asciiDigits beh "Run" none none (.dataReceived "Speed") =
    some (beh.events, .error .valueError) := by decide +kernel

example : OneSlash (.dataReceived "Speed/Ok") := by simp [OneSlash]

/-- A transition between modes: two texts. -/
example : (createEvent asciiDigits beh "Run" (some "T".toList) none
      (.modeSwitch (.list [some "Mode/OFF", some "Mode/ON"]) (some "ON-TRANSITION"))).map (·.2) =
    some (.ok ⟨.modeSwitch, "T".toList, some "/C/App/B/Run", .modes (some "ON-TRANSITION")
      [("/C/App/Mode", some "/I/M/M", "/D/G/OFF"), ("/C/App/Mode", some "/I/M/M", "/D/G/ON")]⟩) := by
  decide +kernel

/-- Finding: a mode switch event whose mode does not exist is refused only after another event was
renamed for its sake; likewise any event whose remaining arguments are refused. -/
theorem C55_failed_counterexample :
    (∃ b run given req evs e, OneSlash req ∧
      createEvent asciiDigits b run given none req = some (evs, .error e) ∧ evs ≠ b.events) ∧
    (∃ b run given req evs e, OneSlash req ∧ req = .background ∧
      createEvent asciiDigits b run given (some .typeError) req = some (evs, .error e) ∧
      evs ≠ b.events) :=
  ⟨⟨beh, "Run", some "MST".toList, .modeSwitch (.text "Mode/STANDBY") none,
      [⟨.background, "MST_0".toList, some "/C/App/B/Init", .nothing⟩], .valueError, trivial,
      by decide +kernel, by decide +kernel⟩,
    ⟨beh, "Run", some "MST".toList, .background,
      [⟨.background, "MST_0".toList, some "/C/App/B/Init", .nothing⟩], .typeError, trivial, rfl,
      by decide +kernel, by decide +kernel⟩⟩

/-- Finding: what follows a second slash is ignored, so a text that names nothing in the component
is accepted. -/
theorem C55_rest_ignored (D : Digits) (b : Behavior) (run : String) (given : Option Name)
    (extra : Option PyErr) (text text' : String) (p e rest : List Char) (hp : p ≠ [])
    (hs : '/' ∉ p) (hs' : '/' ∉ e) (ht : text.toList = p ++ '/' :: e)
    (ht' : text'.toList = p ++ '/' :: (e ++ '/' :: rest)) :
    createEvent D b run given extra (.dataReceived text') =
      createEvent D b run given extra (.dataReceived text) ∧
    createEvent D b run given extra (.dataReceiveError text') =
      createEvent D b run given extra (.dataReceiveError text) ∧
    createEvent D b run given extra (.operationInvoked text') =
      createEvent D b run given extra (.operationInvoked text) := by
  have h1 := strict_eq hp hs ht
  have h2 := strict_eq hp hs ht'
  rw [ht, splitL_append _ _ _ hs, splitL_no_sep _ _ hs'] at h1
  rw [ht', splitL_append _ _ _ hs, splitL_append _ _ _ hs'] at h2
  have h3 : portParts text' = portParts text := by simp [portParts, h1, h2]
  simp only [createEvent, createOnPort, h3]
  simp

/-- Finding: a text that names a transition of the mode group instead of a mode is answered with an
`AttributeError`, as transitions have no `ref()`. -/
theorem C55_transition_finding (D : Digits) (b : Behavior) (run : String) (base : Name)
    (hpl : Plain base) (extra : Option PyErr) (activation : Option String) (c : EvComp)
    (hs : b.swc = some c) (hr : c.root ≠ none) (r : Run)
    (hrun : First b.runnables (fun x => x.name = run) r) (text : String)
    (pn mn : List Char) (p : EvPort) (g : ModeProto) (items : ModeItems) (h0 : pn ≠ [])
    (hn : '/' ∉ pn) (hn' : '/' ∉ mn) (ht : text.toList = pn ++ '/' :: mn) (hp : Required c pn p)
    (hi : p.iface = .ok (.modeSwitch (some g))) (hg : g.type = .ok items)
    (hm : ∀ x ∈ items.modes, x.name.toList ≠ mn) (htr : ∃ x ∈ items.transitions, x.toList = mn) :
    ∃ evs, createEvent D b run (some base) extra (.modeSwitch (.text text) activation) =
      some (evs, .error .attributeError) := by
  obtain ⟨names, u, hu, -⟩ := C10_fresh_partial D (b.events.map (·.name)) base hpl
  have := strict_eq h0 hn ht
  rw [ht, splitL_append _ _ _ hn, splitL_no_sep _ _ hn'] at this
  have hf : items.modes.find? (fun e => decide (e.name.toList = mn)) = none := by
    simpa using hm
  have ht' : items.transitions.any (fun t => decide (t.toList = mn)) = true := by
    simpa using htr
  have hne : text ≠ "" := by
    rintro rfl
    have := congrArg List.length ht
    simp at this
  have ha : modeArgs c text = .error .attributeError := by
    simp [modeArgs, this, rport_iff.2 hp, groupIn_iff.2 ⟨hr, hi⟩, hg, modeRef, hf, ht']
  have hn : c.root.isNone = false := by cases hc : c.root <;> simp_all
  exact ⟨rename b.events names, by
    simp [createEvent, createModeSwitch, hs, hn, runnable_iff.2 hrun, eventBase, modesOf, hne, ha,
      finishEvent, hu]⟩

/-- Finding: in a behaviour that does not know its component (as read from a file,
`C57_behavior_counterexample`) only events that are about no port can be created, and these, if they
are given names, refer to no runnable. -/
theorem C55_loaded_finding (D : Digits) (b : Behavior) (hs : b.swc = none)
    (hr : ∀ r ∈ b.runnables, r.ref = none) (run : String) (r : Run)
    (hrun : First b.runnables (fun x => x.name = run) r) (base : Name) (hp : Plain base) :
    (∀ given extra req, (∀ k, req ∈ [Request.dataReceiveError k, .dataReceived k, .operationInvoked k,
        .modeManagerError k] → createEvent D b run given extra req = some (b.events, .error .runtimeError))) ∧
    (∀ given extra arg act, createEvent D b run given extra (.modeSwitch arg act) =
      some (b.events, .error .runtimeError)) ∧
    (∀ req ∈ [Request.background, .init, .timing none none], ∃ evs ev,
      createEvent D b run (some base) none req = some (evs, .ok ev) ∧ ev.start = none) := by
  have hf := runnable_iff.2 hrun
  have hnone : r.ref = none := hr r (by
    obtain ⟨pre, post, h, -⟩ := hrun
    rw [h]; simp)
  obtain ⟨names, u, hu, -⟩ := C10_fresh_partial D (b.events.map (·.name)) base hp
  refine ⟨?_, ?_, ?_⟩
  · intro given extra req k h
    simp only [List.mem_cons, List.not_mem_nil, or_false] at h
    rcases h with rfl | rfl | rfl | rfl <;> simp [createEvent, createOnPort, createManagerError, hs]
  · intro given extra arg act
    simp [createEvent, createModeSwitch, hs]
  · intro req h
    simp only [List.mem_cons, List.not_mem_nil, or_false] at h
    rcases h with rfl | rfl | rfl <;>
      exact ⟨_, _, by simp [createEvent, createPlain, hf, eventBase, finishEvent, hu, constructed]; exact ⟨rfl, rfl⟩,
        hnone⟩

/-- Finding: the mode group of an interface that was read from a file has no reference, and the
events created for it do not refer to it. -/
theorem C55_group_finding (D : Digits) (b : Behavior) (c : EvComp) (hs : b.swc = some c)
    (hroot : c.root ≠ none) (run : String) (r : Run)
    (hrun : First b.runnables (fun x => x.name = run) r) (base : Name) (hpl : Plain base)
    (port : String) (p : EvPort) (g : ModeProto) (hp : Provided c port.toList p)
    (hi : p.iface = .ok (.modeSwitch (some g))) (hg : g.ref = none) :
    ∃ evs u, createEvent D b run (some base) none (.modeManagerError port) =
      some (evs, .ok ⟨.modeManagerError, u, r.ref, .modeGroup p.ref none⟩) :=
  hg ▸ C55_possible hrun (.modeManagerError hs hroot hp hi) (.inl rfl) hpl

example : (createEvent asciiDigits beh "Run" none none (.dataReceived "Speed/Ok/Nothing/There")).map
    (·.2) = some (.ok ⟨.dataReceived, "DRT_Run_Speed_Ok".toList, some "/C/App/B/Run",
      .data "/C/App/Speed" "/I/S/Ok"⟩) := by decide +kernel

example : (createEvent asciiDigits beh "Run" (some "T".toList) none
    (.modeSwitch (.text "Mode/Up") none)).map (·.2) = some (.error .attributeError) := by decide +kernel

end Verif.Props.SwcEvent
