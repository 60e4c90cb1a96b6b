import Verif.Swc.Access
/-
C35: port access strings (element.py 6615-6932).
-/
set_option linter.unusedSimpArgs false
set_option linter.unusedVariables false
namespace Verif.Props.SwcAccess
open Verif.Py Verif.Ref Verif.Swc

/-! ### Specification, after the documentation of `create_port_access` (element.py 6630-6657) -/

/-- The documented prefixes. -/
inductive Word where
  | argument | value | read | write | send | async | sync | access | switch
deriving DecidableEq, Repr

/-- How a prefix may be spelled, in capitals. -/
def Word.spellings : Word → List String
  | .argument => ["ARGUMENT", "ARG"]
  | .value => ["VALUE", "VAL"]
  | .read => ["READ"]
  | .write => ["WRITE"]
  | .send => ["SEND"]
  | .async => ["ASYNC"]
  | .sync => ["SYNC"]
  | .access => ["ACCESS"]
  | .switch => ["SWITCH"]

/-- `t` is a spelling of `w`, in any case. -/
def SpeltAs (t : List Char) (w : Word) : Prop := ∃ s ∈ w.spellings, upperL t = s.toList

/-- `port` or `port/element`. -/
inductive Target : List Char → List Char → List Char → Prop where
  | port (p : List Char) : '/' ∉ p → Target p p []
  | elem (p e : List Char) : '/' ∉ p → Target (p ++ '/' :: e) p e

/-- `[PREFIX:]port[/element]`; blanks may follow the colon. -/
inductive Spells : List Char → Option Word → List Char → List Char → Prop where
  | bare {t p e : List Char} : ':' ∉ t → Target t p e → Spells t none p e
  | prefixed {x ws t p e : List Char} {w : Word} : ':' ∉ x → SpeltAs x w →
      (∀ c ∈ ws, isSpaceC c = true) → (∀ c ∈ t.head?, isSpaceC c = false) → Target t p e →
      Spells (x ++ ':' :: (ws ++ t)) (some w) p e

/-- The element an element name means: without a name the only one. -/
def Means (l : List AccElem) (n : List Char) (e : AccElem) : Prop :=
  (n = [] ∧ l = [e]) ∨ (n ≠ [] ∧ e ∈ l ∧ e.name.toList = n)

/-- The elements of an interface among which the text chooses. -/
def elems : AccIface → List AccElem
  | .data l | .params l | .ops l => l
  | .mode g => g.toList
  | .other => []

/-- The documented meanings: class of port, interface, prefix, kind of access and settings key. -/
inductive Documented : PortKind → AccIface → Option Word → Slot → String → Prop where
  | argument (l w) : w ∈ [none, some Word.argument] →
      Documented .r (.data l) w .receiveByArgument "data_receive_point_prefix"
  | value (l) : Documented .r (.data l) (some .value) .receiveByValue "data_receive_point_prefix"
  | read (l) : Documented .r (.data l) (some .read) .dataRead "data_read_access_prefix"
  | write (l) : Documented .p (.data l) (some .write) .dataWrite "data_write_access_prefix"
  | send (l w) : w ∈ [none, some Word.send] →
      Documented .p (.data l) w .dataSend "data_send_point_prefix"
  | async (k l) : k ≠ .p → Documented k (.ops l) (some .async) .asyncCall "server_call_point_prefix"
  | sync (k l w) : k ≠ .p → w ∈ [none, some Word.sync] →
      Documented k (.ops l) w .syncCall "server_call_point_prefix"
  | access (k g) : k ≠ .pr →
      Documented k (.mode g) (some .access) .modeAccess "mode_access_point_prefix"
  | switch (g) : Documented .p (.mode g) (some .switch) .modeSwitch "mode_switch_point_prefix"

/-! ### Lemmas -/

theorem target_iff (t p e : List Char) : Target t p e ↔ partL '/' t = (p, e) := by
  constructor
  · intro h
    cases h with
    | port p h => exact partL_no_sep _ _ h
    | elem p e h => exact partL_append _ _ _ h
  · intro h
    by_cases hm : '/' ∈ t
    · have h1 := partL_spec '/' t
      have h2 := not_mem_partL_fst '/' t
      rw [h] at h1 h2
      rcases h1 with ⟨_, _, h1⟩ | h1
      · exact absurd hm h1
      · rw [h1]; exact .elem _ _ h2
    · rw [partL_no_sep _ _ hm] at h
      cases h
      exact .port _ hm

def optsOf : Option Word → Opts
  | some .async => { async := true }
  | some .read | some .write => { implicit := true }
  | some .value => { byValue := true }
  | some .access => { mode := some false }
  | some .switch => { mode := some true }
  | _ => {}

theorem spelling_unique {w w' : Word} {s s' : String} (h : s ∈ w.spellings) (h' : s' ∈ w'.spellings)
    (e : s.toList = s'.toList) : w = w' := by
  have e := String.toList_injective e
  subst e
  cases w <;> cases w' <;> first | rfl | (simp [Word.spellings] at h h'; grind)

theorem parsePrefix_word (w : Word) (s : String) (h : s ∈ w.spellings) :
    parsePrefix s.toList = .ok (optsOf (some w)) := by
  cases w <;> simp only [Word.spellings, List.mem_cons, List.not_mem_nil, or_false] at h <;>
    first | (subst h; decide) | (rcases h with h | h <;> subst h <;> decide)

theorem parsePrefix_ok {u : List Char} {o : Opts} (h : parsePrefix u = .ok o) :
    ∃ w : Word, ∃ s ∈ w.spellings, u = s.toList := by
  unfold parsePrefix at h
  repeat' split at h
  · exact ⟨.async, "ASYNC", by simp [Word.spellings], by assumption⟩
  · exact ⟨.sync, "SYNC", by simp [Word.spellings], by assumption⟩
  · rename_i hh; rcases hh with hh | hh
    · exact ⟨.read, _, by simp [Word.spellings], hh⟩
    · exact ⟨.write, _, by simp [Word.spellings], hh⟩
  · rename_i hh; rcases hh with hh | hh
    · exact ⟨.argument, "ARGUMENT", by simp [Word.spellings], hh⟩
    · exact ⟨.argument, "ARG", by simp [Word.spellings], hh⟩
  · rename_i hh; rcases hh with hh | hh
    · exact ⟨.value, "VALUE", by simp [Word.spellings], hh⟩
    · exact ⟨.value, "VAL", by simp [Word.spellings], hh⟩
  · exact ⟨.send, "SEND", by simp [Word.spellings], by assumption⟩
  · exact ⟨.access, "ACCESS", by simp [Word.spellings], by assumption⟩
  · exact ⟨.switch, "SWITCH", by simp [Word.spellings], by assumption⟩
  · cases h

theorem parsePrefix_error {u : List Char} {e : PyErr} (h : parsePrefix u = .error e) :
    e = .valueError := by
  unfold parsePrefix at h
  repeat' split at h
  all_goals first | (cases h; rfl) | cases h

theorem lstrip_append (ws t : List Char) (h : ∀ c ∈ ws, isSpaceC c = true)
    (ht : ∀ c ∈ t.head?, isSpaceC c = false) : lstripL (ws ++ t) = t := by
  induction ws with
  | nil =>
    cases t with
    | nil => rfl
    | cons c t => have := ht c (by simp); simp [lstripL, List.dropWhile, this]
  | cons c ws ih =>
    have hc := h c (by simp)
    have := ih (fun d hd => h d (by simp [hd]))
    simpa [lstripL, List.dropWhile, hc] using this

theorem lstrip_split (t : List Char) : ∃ ws, (∀ c ∈ ws, isSpaceC c = true) ∧
    (∀ c ∈ (lstripL t).head?, isSpaceC c = false) ∧ t = ws ++ lstripL t := by
  induction t with
  | nil => exact ⟨[], by simp, by simp [lstripL], by simp [lstripL]⟩
  | cons c t ih =>
    cases hc : isSpaceC c with
    | false => exact ⟨[], by simp, by simp [lstripL, List.dropWhile, hc], by simp [lstripL, List.dropWhile, hc]⟩
    | true =>
      obtain ⟨ws, h1, h2, h3⟩ := ih
      have e : lstripL (c :: t) = lstripL t := by simp [lstripL, List.dropWhile, hc]
      refine ⟨c :: ws, ?_, ?_, ?_⟩
      · intro d hd; rcases List.mem_cons.mp hd with rfl | hd
        · exact hc
        · exact h1 d hd
      · rw [e]; exact h2
      · rw [e, List.cons_append, ← h3]

theorem spells_parse {t p e : List Char} {w : Option Word} (h : Spells t w p e) :
    parseAccess t = .ok (optsOf w, p, e) := by
  cases h with
  | bare hn ht => simp [parseAccess, hn, (target_iff _ _ _).mp ht, optsOf]
  | prefixed hx hw hs hh ht =>
    obtain ⟨s, hs1, hs2⟩ := hw
    simp [parseAccess, partL_append _ _ _ hx, hs2, parsePrefix_word _ _ hs1, lstrip_append _ _ hs hh,
      (target_iff _ _ _).mp ht]

theorem parse_spells {t p e : List Char} {o : Opts} (h : parseAccess t = .ok (o, p, e)) :
    ∃ w, Spells t w p e := by
  unfold parseAccess at h
  split at h
  · rename_i hm
    split at h
    · cases h
    · rename_i o' ho
      obtain ⟨w, s, hs, hu⟩ := parsePrefix_ok ho
      obtain ⟨ws, h1, h2, h3⟩ := lstrip_split (partL ':' t).2
      have ht : t = (partL ':' t).1 ++ ':' :: (partL ':' t).2 := by
        rcases partL_spec ':' t with ⟨_, _, hn⟩ | he
        · exact absurd hm hn
        · exact he
      refine ⟨some w, ?_⟩
      rw [ht, h3]
      refine .prefixed (not_mem_partL_fst _ _) ⟨s, hs, hu⟩ h1 h2 ((target_iff _ _ _).mpr ?_)
      simp only [Except.ok.injEq, Prod.mk.injEq] at h
      exact h.2
  · rename_i hm
    refine ⟨none, .bare hm ((target_iff _ _ _).mpr ?_)⟩
    simp only [Except.ok.injEq, Prod.mk.injEq] at h
    exact h.2

theorem parse_error {t : List Char} {err : PyErr} (h : parseAccess t = .error err) :
    err = .valueError := by
  unfold parseAccess at h
  split at h
  · split at h
    · rename_i e he; cases h; exact parsePrefix_error he
    · cases h
  · cases h

theorem spells_word {t p p' e e' : List Char} {w w' : Option Word} (h : Spells t w p e)
    (h' : Spells t w' p' e') : w = w' := by
  generalize ht : t = t2 at h'
  cases h with
  | bare hn _ =>
    cases h' with
    | bare => rfl
    | prefixed => subst ht; simp at hn
  | prefixed hx hw _ _ _ =>
    cases h' with
    | bare hn _ => subst ht; simp at hn
    | prefixed hx' hw' _ _ _ =>
      have := congrArg (fun l => (partL ':' l).1) ht
      simp only [partL_append _ _ _ hx, partL_append _ _ _ hx'] at this
      subst this
      obtain ⟨s, hs, hu⟩ := hw
      obtain ⟨s', hs', hu'⟩ := hw'
      rw [spelling_unique hs hs' (hu.symm.trans hu')]

theorem pick_means {l : List AccElem} {n : List Char} {e : AccElem} (h : pickElem l n = some e) : Means l n e := by
  unfold pickElem at h
  split at h
  · rename_i hn
    split at h
    · cases h; exact .inl ⟨hn, rfl⟩
    · cases h
  · rename_i hn
    have := List.mem_of_getLast? h
    simp at this
    exact .inr ⟨hn, this.1, this.2⟩

theorem means_pick {l : List AccElem} {n : List Char} {e : AccElem} (hu : (l.map AccElem.name).Nodup)
    (h : Means l n e) : pickElem l n = some e := by
  rcases h with ⟨rfl, rfl⟩ | ⟨hn, he, hname⟩
  · simp [pickElem]
  · have hp : ∃ e', pickElem l n = some e' := by
      simp only [pickElem, hn, if_false]
      cases hg : (l.filter fun e => e.name.toList = n).getLast? with
      | some e' => exact ⟨e', rfl⟩
      | none =>
        rw [List.getLast?_eq_none_iff, List.filter_eq_nil_iff] at hg
        exact absurd hname (by simpa using hg e he)
    obtain ⟨e', he'⟩ := hp
    rcases pick_means he' with ⟨h0, _⟩ | ⟨_, hm, hname'⟩
    · exact absurd h0 hn
    · have hnn : e'.name = e.name := String.toList_injective (hname'.trans hname.symm)
      have : e' = e := by
        clear he' hname hname' hn
        induction l with
        | nil => cases he
        | cons a l ih =>
          simp only [List.map_cons, List.nodup_cons, List.mem_map, not_exists, not_and] at hu
          rcases List.mem_cons.mp he with rfl | he1 <;> rcases List.mem_cons.mp hm with rfl | hm1
          · rfl
          · exact absurd hnn (hu.1 _ hm1)
          · exact absurd hnn.symm (hu.1 _ he1)
          · exact ih hu.2 he1 hm1
      rw [he', this]

theorem means_unique {l : List AccElem} {n : List Char} {e e' : AccElem} (hu : (l.map AccElem.name).Nodup)
    (h : Means l n e) (h' : Means l n e') : e = e' :=
  Option.some.inj ((means_pick hu h).symm.trans (means_pick hu h'))

theorem not_means_pick {l : List AccElem} {n : List Char} (h : ∀ e, ¬ Means l n e) : pickElem l n = none := by
  cases hp : pickElem l n with
  | none => rfl
  | some e => exact absurd (pick_means hp) (h e)

/-- Creation of one named point, with nothing refused. -/
theorem makePoint_ok {s : Settings} {key : String} {slot : Slot} {x : Extra} {p : AccPort} {e : AccElem}
    {pt : Option Point} (h : makePoint s key slot x p e = .ok pt) :
    ∃ n, pt = some ⟨slot, some n, p.ref, e.ref⟩ ∧
      (x.name = some n ∨ x.name = none ∧ ∃ t, s.getValue key = .ok (some t) ∧
        n = t ++ "_" ++ p.name ++ "_" ++ e.name) := by
  unfold makePoint pointName prefixOf at h
  cases hx : x.name with
  | some n =>
    simp only [hx] at h
    cases he : x.err with
    | some err => simp [he] at h
    | none => simp [he] at h; exact ⟨n, h.symm, .inl rfl⟩
  | none =>
    simp only [hx] at h
    cases hg : s.getValue key with
    | error err => simp [hg] at h
    | ok v =>
      cases v with
      | none => simp [hg] at h
      | some t =>
        cases he : x.err with
        | some err => simp [hg, he] at h
        | none => simp [hg, he] at h; exact ⟨_, h.symm, .inr ⟨rfl, t, rfl, rfl⟩⟩

theorem makePoint_default {s : Settings} {key : String} (slot : Slot) (p : AccPort) (e : AccElem) {t : String}
    (h : s.getValue key = .ok (some t)) :
    makePoint s key slot {} p e = .ok (some ⟨slot, some (t ++ "_" ++ p.name ++ "_" ++ e.name), p.ref, e.ref⟩) := by
  simp [makePoint, pointName, prefixOf, h]

/-- The kinds of access that exist for a class of port and an interface. -/
inductive Fits : PortKind → AccIface → Slot → Prop where
  | read (l) : Fits .r (.data l) .dataRead
  | value (l) : Fits .r (.data l) .receiveByValue
  | argument (l) : Fits .r (.data l) .receiveByArgument
  | write (l) : Fits .p (.data l) .dataWrite
  | send (l) : Fits .p (.data l) .dataSend
  | access (k g) : k ≠ .pr → Fits k (.mode g) .modeAccess
  | switch (g) : Fits .p (.mode g) .modeSwitch
  | parameter (k l) : Fits k (.params l) .parameter
  | async (k l) : k ≠ .p → Fits k (.ops l) .asyncCall
  | sync (k l) : k ≠ .p → Fits k (.ops l) .syncCall

/-! ### C35 -/

/-- **C35**, reading the text: it is accepted exactly if it has the documented form, with the meaning
it spells; otherwise it is a ValueError. -/
theorem C35_parse (t : List Char) :
    (∀ o p e, parseAccess t = .ok (o, p, e) ↔ ∃ w, Spells t w p e ∧ o = optsOf w) ∧
    (∀ err, parseAccess t = .error err ↔ err = .valueError ∧ ¬ ∃ w p e, Spells t w p e) := by
  constructor
  · intro o p e
    constructor
    · intro h
      obtain ⟨w, hw⟩ := parse_spells h
      rw [spells_parse hw] at h
      cases h
      exact ⟨w, hw, rfl⟩
    · rintro ⟨w, hw, rfl⟩
      exact spells_parse hw
  · intro err
    constructor
    · intro h
      refine ⟨parse_error h, ?_⟩
      rintro ⟨w, p, e, hw⟩
      rw [spells_parse hw] at h
      cases h
    · rintro ⟨rfl, hn⟩
      cases hp : parseAccess t with
      | error err => rw [parse_error hp]
      | ok v =>
        obtain ⟨o, p, e⟩ := v
        obtain ⟨w, hw⟩ := parse_spells hp
        exact absurd ⟨w, p, e, hw⟩ hn

theorem upperL_ascii (t : List Char) (h : ∀ c ∈ t, c.toNat < 128) : upperL t = t.map Char.toUpper := by
  induction t with
  | nil => rfl
  | cons c t ih =>
    have hc := h c (by simp)
    have h1 : c ≠ 'ſ' := by rintro rfl; revert hc; decide
    have h2 : c ≠ 'ı' := by rintro rfl; revert hc; decide
    have h3 : c ≠ 'ß' := by rintro rfl; revert hc; decide
    have := ih (fun d hd => h d (by simp [hd]))
    simp only [upperL] at this
    simp [upperL, upperC, h1, h2, h3, this]

/-- **C35**, case: an ASCII text is a spelling of a prefix exactly if its capitals are. -/
theorem C35_any_case (t : List Char) (w : Word) (h : ∀ c ∈ t, c.toNat < 128) :
    SpeltAs t w ↔ ∃ s ∈ w.spellings, t.map Char.toUpper = s.toList := by
  simp only [SpeltAs, upperL_ascii t h]

/-- **C35**, no text can be read in two ways. -/
theorem C35_unambiguous {t p p' e e' : List Char} {w w' : Option Word} (h : Spells t w p e)
    (h' : Spells t w' p' e') : w = w' ∧ p = p' ∧ e = e' := by
  have h1 := spells_parse h
  rw [spells_parse h'] at h1
  simp only [Except.ok.injEq, Prod.mk.injEq] at h1
  exact ⟨spells_word h h', h1.2.1.symm, h1.2.2.symm⟩

/-- **C35**, the documented accesses: exactly the access spelled is created, for the port and the
element spelled, under the default name. -/
theorem C35_documented (s : Settings) (ports : List AccPort) (pts : List Point) (text : String)
    {w : Option Word} {pn en : List Char} {p : AccPort} {i : AccIface} {slot : Slot} {key t : String} {e : AccElem}
    (hs : Spells text.toList w pn en)
    (hports : (ports.map AccPort.name).Nodup) (hp : p ∈ ports) (hpn : p.name.toList = pn)
    (hi : p.iface = .ok i) (hd : Documented p.kind i w slot key)
    (hu : ((elems i).map AccElem.name).Nodup) (he : Means (elems i) en e)
    (hk : s.getValue key = .ok (some t)) :
    createAccess s ports pts [(text, {})] =
      (pts ++ [⟨slot, some (t ++ "_" ++ p.name ++ "_" ++ e.name), p.ref, e.ref⟩], .ok ()) := by
  have hfind : ports.find? (fun q => q.name.toList = pn) = some p := by
    clear hi hd hu he
    induction ports with
    | nil => cases hp
    | cons a l ih =>
      simp only [List.map_cons, List.nodup_cons, List.mem_map, not_exists, not_and] at hports
      rcases List.mem_cons.mp hp with rfl | hp1
      · simp [List.find?, hpn]
      · have hne : ¬ a.name.toList = pn := by
          intro h
          exact hports.1 p hp1 (String.toList_injective (hpn.trans h.symm))
        simp only [List.find?, hne, decide_false]
        exact ih hports.2 hp1
  have hpick := means_pick hu he
  have hone : oneAccess s ports text {} =
      .ok (some ⟨slot, some (t ++ "_" ++ p.name ++ "_" ++ e.name), p.ref, e.ref⟩) := by
    simp only [oneAccess, spells_parse hs, hfind, hi]
    generalize hkk : p.kind = k at hd
    cases hd with
    | argument l w hw =>
      simp only [elems] at hpick
      rcases (by simpa using hw : w = none ∨ w = some Word.argument) with rfl | rfl <;>
        simp [dataAccess, hpick, hkk, optsOf, makePoint_default _ _ _ hk]
    | value l => simp only [elems] at hpick; simp [dataAccess, hpick, hkk, optsOf, makePoint_default _ _ _ hk]
    | read l => simp only [elems] at hpick; simp [dataAccess, hpick, hkk, optsOf, makePoint_default _ _ _ hk]
    | write l => simp only [elems] at hpick; simp [dataAccess, hpick, hkk, optsOf, makePoint_default _ _ _ hk]
    | send l w hw =>
      simp only [elems] at hpick
      rcases (by simpa using hw : w = none ∨ w = some Word.send) with rfl | rfl <;>
        simp [dataAccess, hpick, hkk, optsOf, makePoint_default _ _ _ hk]
    | async k l hk' =>
      simp only [elems] at hpick
      subst hkk
      cases hc : p.kind <;> simp_all [callAccess, optsOf, makePoint_default _ _ _ hk]
    | sync k l w hk' hw =>
      simp only [elems] at hpick
      subst hkk
      rcases (by simpa using hw : w = none ∨ w = some Word.sync) with rfl | rfl <;>
        cases hc : p.kind <;> simp_all [callAccess, optsOf, makePoint_default _ _ _ hk]
    | access k g hk' =>
      subst hkk
      cases g with
      | none => rcases he with ⟨_, h⟩ | ⟨_, h, _⟩ <;> simp [elems] at h
      | some g =>
        have hg : g = e ∧ (en = [] ∨ en = e.name.toList) := by
          rcases he with ⟨h0, h⟩ | ⟨_, h, hn⟩
          · simp [elems] at h; exact ⟨h, .inl h0⟩
          · simp [elems] at h; subst h; exact ⟨rfl, .inr hn.symm⟩
        obtain ⟨rfl, hg⟩ := hg
        cases hc : p.kind <;> simp_all [modeAccess, optsOf, makePoint_default _ _ _ hk]
    | switch g =>
      cases g with
      | none => rcases he with ⟨_, h⟩ | ⟨_, h, _⟩ <;> simp [elems] at h
      | some g =>
        have hg : g = e ∧ (en = [] ∨ en = e.name.toList) := by
          rcases he with ⟨h0, h⟩ | ⟨_, h, hn⟩
          · simp [elems] at h; exact ⟨h, .inl h0⟩
          · simp [elems] at h; subst h; exact ⟨rfl, .inr hn.symm⟩
        obtain ⟨rfl, hg⟩ := hg
        simp [modeAccess, hg, hkk, optsOf, makePoint_default _ _ _ hk]
  simp [createAccess, hone]

/-- The point created for one text, if any, is for the port and the element spelled, of a kind that
exists for the port's class and interface. -/
theorem one_sound {s : Settings} {ports : List AccPort} {text : String} {x : Extra} {pt : Point}
    (h : oneAccess s ports text x = .ok (some pt)) :
    ∃ w pn en p i e, Spells text.toList w pn en ∧ p ∈ ports ∧ p.name.toList = pn ∧ p.iface = .ok i ∧
      Means (elems i) en e ∧ Fits p.kind i pt.slot ∧ pt.port = p.ref ∧ pt.elem = e.ref := by
  unfold oneAccess at h
  split at h
  · cases h
  · rename_i o pn en hpar
    obtain ⟨w, hw⟩ := parse_spells hpar
    split at h
    · cases h
    · rename_i p hf
      have hmem := List.mem_of_find?_eq_some hf
      have hname : p.name.toList = pn := by simpa using List.find?_some hf
      split at h
      · cases h
      · rename_i l hi
        unfold dataAccess at h
        split at h
        · cases h
        · rename_i e he
          refine ⟨w, pn, en, p, _, e, hw, hmem, hname, hi, pick_means he, ?_⟩
          split at h
          · rename_i hk
            rw [hk]
            split at h
            · obtain ⟨n, hn, _⟩ := makePoint_ok h; cases hn; exact ⟨.read l, rfl, rfl⟩
            · obtain ⟨n, hn, _⟩ := makePoint_ok h; cases hn
              refine ⟨?_, rfl, rfl⟩
              dsimp only; split
              · exact .value l
              · exact .argument l
          · rename_i hk
            rw [hk]
            split at h
            · obtain ⟨n, hn, _⟩ := makePoint_ok h; cases hn; exact ⟨.write l, rfl, rfl⟩
            · obtain ⟨n, hn, _⟩ := makePoint_ok h; cases hn; exact ⟨.send l, rfl, rfl⟩
          · cases h
      · rename_i g hi
        unfold modeAccess at h
        split at h
        · split at h <;> cases h
        · rename_i e
          split at h
          · rename_i hn
            have hm : Means (elems (.mode (some e))) en e := by
              by_cases h0 : en = []
              · exact .inl ⟨h0, rfl⟩
              · rcases hn with hn | hn
                · exact absurd hn h0
                · exact .inr ⟨h0, by simp [elems], hn.symm⟩
            refine ⟨w, pn, en, p, _, e, hw, hmem, hname, hi, hm, ?_⟩
            cases hk : p.kind <;> rcases hmo : o.mode with _ | (_ | _) <;> simp only [hk, hmo] at h
            all_goals first
              | (cases h; done)
              | (cases h; exact ⟨.access _ _ (by simp), rfl, rfl⟩)
              | (obtain ⟨n, hn, _⟩ := makePoint_ok h; cases hn
                 first
                  | exact ⟨.switch _, rfl, rfl⟩
                  | exact ⟨.access _ _ (by simp), rfl, rfl⟩)
          · cases h
      · rename_i l hi
        unfold paramAccess at h
        split at h
        · split at h <;> cases h
        · split at h
          · cases h
          · rename_i e he
            obtain ⟨n, hn, _⟩ := makePoint_ok h; cases hn
            exact ⟨w, pn, en, p, _, e, hw, hmem, hname, hi, pick_means he, .parameter _ l, rfl, rfl⟩
      · rename_i l hi
        unfold callAccess at h
        split at h
        · cases h
        · rename_i e he
          split at h
          · cases h
          · rename_i hk
            obtain ⟨n, hn, _⟩ := makePoint_ok h; cases hn
            refine ⟨w, pn, en, p, _, e, hw, hmem, hname, hi, pick_means he, ?_, rfl, rfl⟩
            dsimp only; split
            · exact .async _ l (by simpa using hk)
            · exact .sync _ l (by simpa using hk)
      · cases h

/-- The texts of a list processed up to the first failure. -/
theorem create_app (s : Settings) (ports : List AccPort) (pts : List Point) (l : List (String × Extra)) :
    ∃ done rest new, l = done ++ rest ∧ (createAccess s ports pts l).1 = pts ++ new ∧
      done.filterMap (fun a => (oneAccess s ports a.1 a.2).toOption.join) = new ∧
      (∀ a ∈ done, ∃ r, oneAccess s ports a.1 a.2 = .ok r) ∧
      ((createAccess s ports pts l).2 = .ok () ∧ rest = [] ∨
       ∃ a tl err, rest = a :: tl ∧ oneAccess s ports a.1 a.2 = .error err ∧
        (createAccess s ports pts l).2 = .error err) := by
  induction l generalizing pts with
  | nil => exact ⟨[], [], [], rfl, by simp [createAccess], rfl, by simp, .inl ⟨rfl, rfl⟩⟩
  | cons a l ih =>
    obtain ⟨t, x⟩ := a
    cases ho : oneAccess s ports t x with
    | error err =>
      exact ⟨[], (t, x) :: l, [], rfl, by simp [createAccess, ho], rfl, by simp,
        .inr ⟨(t, x), l, err, rfl, ho, by simp [createAccess, ho]⟩⟩
    | ok r =>
      cases r with
      | none =>
        obtain ⟨d, rest, new, h1, h2, h3, h4, h5⟩ := ih pts
        refine ⟨(t, x) :: d, rest, new, by rw [h1]; rfl, by simpa [createAccess, ho] using h2,
          by simpa [ho, Except.toOption] using h3, ?_, by simpa [createAccess, ho] using h5⟩
        intro a ha
        rcases List.mem_cons.mp ha with rfl | ha
        · exact ⟨none, ho⟩
        · exact h4 a ha
      | some pt =>
        obtain ⟨d, rest, new, h1, h2, h3, h4, h5⟩ := ih (pts ++ [pt])
        refine ⟨(t, x) :: d, rest, pt :: new, by rw [h1]; rfl, by simpa [createAccess, ho] using h2,
          by simpa [ho, Except.toOption] using h3, ?_, by simpa [createAccess, ho] using h5⟩
        intro a ha
        rcases List.mem_cons.mp ha with rfl | ha
        · exact ⟨some pt, ho⟩
        · exact h4 a ha

/-- **C35**, any list of texts and any arguments: what was there stays, and every new point comes from
one of the texts: it is for the port and the element that text spells and of a kind that exists for
the port's class and interface.  Partial: beyond the documented combinations (`C35_documented`) the
prefix need not agree with the kind, see `C35_findings`. -/
theorem C35_points_partial (s : Settings) (ports : List AccPort) (pts : List Point)
    (l : List (String × Extra)) :
    ∃ new, (createAccess s ports pts l).1 = pts ++ new ∧ ∀ pt ∈ new, ∃ text x, (text, x) ∈ l ∧
      ∃ w pn en p i e, Spells text.toList w pn en ∧ p ∈ ports ∧ p.name.toList = pn ∧ p.iface = .ok i ∧
        Means (elems i) en e ∧ Fits p.kind i pt.slot ∧ pt.port = p.ref ∧ pt.elem = e.ref := by
  obtain ⟨d, rest, new, h1, h2, h3, h4, _⟩ := create_app s ports pts l
  refine ⟨new, h2, ?_⟩
  intro pt hpt
  rw [← h3, List.mem_filterMap] at hpt
  obtain ⟨a, ha, hpt⟩ := hpt
  obtain ⟨r, hr⟩ := h4 a ha
  rw [hr] at hpt
  simp [Except.toOption] at hpt
  subst hpt
  exact ⟨a.1, a.2, by rw [h1]; simp [ha], one_sound hr⟩

/-- **C35**, malformed texts: a text that is not of the documented form, or names no port of the
component, is refused with ValueError; one that names no element of the port's interface is refused
too.  The runnable stays as it was. -/
theorem C35_malformed_rejected (s : Settings) (ports : List AccPort) (pts : List Point) (text : String)
    (x : Extra) :
    ((¬ ∃ w pn en, Spells text.toList w pn en) →
      createAccess s ports pts [(text, x)] = (pts, .error .valueError)) ∧
    (∀ w pn en, Spells text.toList w pn en → (∀ p ∈ ports, p.name.toList ≠ pn) →
      createAccess s ports pts [(text, x)] = (pts, .error .valueError)) ∧
    (∀ w pn en, Spells text.toList w pn en →
      (∀ p ∈ ports, p.name.toList = pn → ∀ i, p.iface = .ok i → ∀ e, ¬ Means (elems i) en e) →
      ∃ err, createAccess s ports pts [(text, x)] = (pts, .error err)) := by
  refine ⟨?_, ?_, ?_⟩
  · intro h
    have := ((C35_parse text.toList).2 .valueError).mpr ⟨rfl, h⟩
    simp [createAccess, oneAccess, this]
  · intro w pn en h hn
    have hf : ports.find? (fun p => p.name.toList = pn) = none := by
      rw [List.find?_eq_none]; intro p hp; simpa using hn p hp
    simp [createAccess, oneAccess, spells_parse h, hf]
  · intro w pn en h hn
    have key : ∃ err, oneAccess s ports text x = .error err := by
      simp only [oneAccess, spells_parse h]
      split
      · exact ⟨_, rfl⟩
      · rename_i p hf
        have hne := hn p (List.mem_of_find?_eq_some hf) (by simpa using List.find?_some hf)
        split
        · exact ⟨_, rfl⟩
        · rename_i l hi
          simp [dataAccess, not_means_pick (hne _ hi), elems, show pickElem l en = none from not_means_pick (hne _ hi)]
        · rename_i g hi
          cases g with
          | none => simp only [modeAccess]; split <;> exact ⟨_, rfl⟩
          | some g =>
            have h0 : ¬ (en = [] ∨ en = g.name.toList) := by
              intro h
              by_cases h0 : en = []
              · exact hne _ hi g (.inl ⟨h0, rfl⟩)
              · exact hne _ hi g (.inr ⟨h0, by simp [elems], (h.resolve_left h0).symm⟩)
            simp only [modeAccess, h0, if_false]
            exact ⟨_, rfl⟩
        · rename_i l hi
          simp only [paramAccess, show pickElem l en = none from not_means_pick (hne _ hi)]
          split
          · split <;> exact ⟨_, rfl⟩
          · exact ⟨_, rfl⟩
        · rename_i l hi
          simp [callAccess, show pickElem l en = none from not_means_pick (hne _ hi)]
        · exact ⟨_, rfl⟩
    obtain ⟨err, he⟩ := key
    exact ⟨err, by simp [createAccess, he]⟩

/-- **C35**, mode ports without prefix: an anonymous access point for the group. -/
theorem C35_mode_default (s : Settings) (ports : List AccPort) (pts : List Point) (text : String)
    {pn en : List Char} {p : AccPort} {g : AccElem} (hs : Spells text.toList none pn en)
    (hp : ports.find? (fun q => q.name.toList = pn) = some p) (hi : p.iface = .ok (.mode (some g)))
    (hk : p.kind ≠ .pr) (he : Means [g] en g) :
    createAccess s ports pts [(text, {})] = (pts ++ [⟨.modeAccess, none, p.ref, g.ref⟩], .ok ()) := by
  have hg : en = [] ∨ en = g.name.toList := by
    rcases he with ⟨h, _⟩ | ⟨_, _, h⟩
    · exact .inl h
    · exact .inr h.symm
  have : oneAccess s ports text {} = .ok (some ⟨.modeAccess, none, p.ref, g.ref⟩) := by
    simp only [oneAccess, spells_parse hs, hp, hi, modeAccess, hg, if_true]
    cases hc : p.kind <;> simp_all [optsOf]
  simp [createAccess, this]

/-- **C35**, a named parameter. -/
theorem C35_parameter (s : Settings) (ports : List AccPort) (pts : List Point) (text : String)
    {w : Option Word} {pn en : List Char} {p : AccPort} {l : List AccElem} {e : AccElem} {t : String}
    (hs : Spells text.toList w pn en)
    (hp : ports.find? (fun q => q.name.toList = pn) = some p) (hi : p.iface = .ok (.params l))
    (hu : (l.map AccElem.name).Nodup) (hn : en ≠ []) (he : Means l en e)
    (hk : s.getValue "parameter_access_prefix" = .ok (some t)) :
    createAccess s ports pts [(text, {})] =
      (pts ++ [⟨.parameter, some (t ++ "_" ++ p.name ++ "_" ++ e.name), p.ref, e.ref⟩], .ok ()) := by
  simp [createAccess, oneAccess, spells_parse hs, hp, hi, paramAccess, hn, means_pick hu he,
    makePoint_default _ _ _ hk]

/-! ### Cases -/

/-- All prefixes set to "x". -/
def demoSettings : Settings := fun n => if n ∈ methodNames then none else some (some "x")

def vel : AccPort := ⟨"Vel", .r, "/S/Vel", .ok (.data [⟨"Speed", some "/I/Speed"⟩, ⟨"Dir", some "/I/Dir"⟩])⟩
def out : AccPort := ⟨"Out", .p, "/S/Out", .ok (.data [⟨"Cmd", some "/J/Cmd"⟩])⟩
def modeR : AccPort := ⟨"Mode", .r, "/S/Mode", .ok (.mode (some ⟨"g", some "/M/g"⟩))⟩
def modePR : AccPort := ⟨"ModePR", .pr, "/S/ModePR", .ok (.mode (some ⟨"g", some "/M/g"⟩))⟩
def srv : AccPort := ⟨"Srv", .p, "/S/Srv", .ok (.ops [⟨"op", some "/O/op"⟩])⟩
def cal : AccPort := ⟨"Cal", .r, "/S/Cal", .ok (.params [⟨"k", some "/K/k"⟩])⟩
def demo : List AccPort := [vel, out, modeR, modePR, srv, cal]

example : Spells "Value: Vel/Speed".toList (some .value) "Vel".toList "Speed".toList :=
  .prefixed (x := "Value".toList) (ws := [' ']) (t := "Vel/Speed".toList) (by decide)
    ⟨"VALUE", by decide, by decide⟩ (by decide) (by decide) (.elem "Vel".toList "Speed".toList (by decide))

example : createAccess demoSettings demo [] [("Value: Vel/Speed", {})] =
    ([⟨.receiveByValue, some "x_Vel_Speed", "/S/Vel", some "/I/Speed"⟩], .ok ()) :=
  C35_documented demoSettings demo [] "Value: Vel/Speed"
    (.prefixed (x := "Value".toList) (ws := [' ']) (t := "Vel/Speed".toList) (by decide)
      ⟨"VALUE", by decide, by decide⟩ (by decide) (by decide) (.elem "Vel".toList "Speed".toList (by decide)))
    (by decide) (p := vel) (t := "x") (by simp [demo]) (by decide) rfl (.value _) (by decide)
    (e := ⟨"Speed", some "/I/Speed"⟩) (.inr ⟨by decide, by decide, by decide⟩) (by decide)

example : SpeltAs "aSyNc".toList .async := (C35_any_case _ _ (by decide)).mpr ⟨"ASYNC", by decide, by decide⟩

example : (createAccess demoSettings demo [] [("Vel", {})]).2 = .error .runtimeError := by decide
example : (createAccess demoSettings demo [] [("FETCH:Vel/Speed", {})]).2 = .error .valueError := by decide
example : (createAccess demoSettings demo [] [(" Vel/Speed", {})]).2 = .error .valueError := by decide

/-- **C35**, findings: a prefix for the other direction is taken ("READ" on a P port is an implicit
write, "SEND" on an R port an explicit read); "SWITCH" on an R port, any access to the mode group of a
PR port and any call through a P port are accepted and create nothing; a parameter port with one
parameter cannot be used without naming it; a failing list keeps the points made before; "acceß" is
read as "ACCESS". -/
theorem C35_findings :
    createAccess demoSettings demo [] [("READ:Out", {})] =
      ([⟨.dataWrite, some "x_Out_Cmd", "/S/Out", some "/J/Cmd"⟩], .ok ()) ∧
    createAccess demoSettings demo [] [("SEND:Vel/Dir", {})] =
      ([⟨.receiveByArgument, some "x_Vel_Dir", "/S/Vel", some "/I/Dir"⟩], .ok ()) ∧
    createAccess demoSettings demo [] [("SWITCH:Mode", {}), ("ModePR", {}), ("Srv/op", {})] = ([], .ok ()) ∧
    createAccess demoSettings demo [] [("Cal", {})] = ([], .error .attributeError) ∧
    createAccess demoSettings demo [] [("Out", {}), ("Nope", {})] =
      ([⟨.dataSend, some "x_Out_Cmd", "/S/Out", some "/J/Cmd"⟩], .error .valueError) ∧
    createAccess demoSettings demo [] [("acceß:Mode", {})] =
      ([⟨.modeAccess, some "x_Mode_g", "/S/Mode", some "/M/g"⟩], .ok ()) := by
  decide

end Verif.Props.SwcAccess
