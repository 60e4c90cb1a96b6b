import Verif.Swc.ComSpecLemmas
/-
C34: com-specs created from an interface (element.py 4039-4135, 4350-4452, 4927-5046).
-/
set_option linter.unusedSimpArgs false
set_option linter.unusedVariables false
namespace Verif.Props.SwcComSpec
open Verif.Py Verif.Swc
variable {α : Type}

/-! ### Specification -/

/-- The elements a com-spec can be about: data elements (`false`) or operations (`true`). -/
inductive HasItems : Iface → Bool → List Item → Prop where
  | data (l : List Item) : HasItems (.senderReceiver l) false l
  | ops (l : List Item) : HasItems (.clientServer l) true l

/-- The class of com-spec that belongs to an element on each side: for data elements queued iff the
element is queued. -/
inductive KindFor : Side → Bool → Item → SpecKind → Prop where
  | sendQueued (d : Item) : d.queued = true → KindFor .provide false d .queuedSender
  | send (d : Item) : d.queued = false → KindFor .provide false d .nonqueuedSender
  | recvQueued (d : Item) : d.queued = true → KindFor .require false d .queuedReceiver
  | recv (d : Item) : d.queued = false → KindFor .require false d .nonqueuedReceiver
  | serve (d : Item) : KindFor .provide true d .server
  | call (d : Item) : KindFor .require true d .client

/-- `s` is the com-spec of element `d` made from the arguments `args`. -/
def SpecOf (side : Side) (isOp : Bool) (d : Item) (args : Args α) (s : ComSpec α) : Prop :=
  KindFor side isOp d s.kind ∧ s.target = d.ref ∧ s.args = args

def kindOf (side : Side) : Bool → Item → SpecKind
  | false, d => elemKind side d.queued
  | true, _ => opKind side

theorem kindOf_for (side : Side) (isOp : Bool) (d : Item) : KindFor side isOp d (kindOf side isOp d) := by
  cases side <;> cases isOp <;> cases hq : d.queued <;> simp only [kindOf, elemKind, opKind, hq] <;>
    constructor <;> exact hq

theorem make_many (acc : Accepts α) (side : Side) {iface : Iface} {isOp : Bool} {items : List Item}
    (hi : HasItems iface isOp items) (h2 : 2 ≤ items.length) {kwargs : Args α} {m : Made α}
    (h : makeFromInterface acc side (some iface) kwargs = .ok m) :
    makeMany acc side (kindOf side isOp) kwargs items = .ok m := by
  unfold makeFromInterface at h
  split at h
  · simp at h
  · cases hi with
    | data l =>
      match items, h2 with
      | d :: d' :: ds, _ =>
        simp only at h
        split at h
        · exact h
        · simp at h
    | ops l =>
      match items, h2 with
      | d :: d' :: ds, _ => exact h

/-! ### C34 -/

/-- C34: for an interface with several elements of distinct names, a successful call returns one
com-spec per named element, in the order of the interface, each of the element's class, about that
element and made from its own arguments; and every name is one of the interface.  Missing:
interfaces that repeat an element name, for which it is false (`C34_findings`). -/
theorem C34_specs_partial (acc : Accepts α) (side : Side) (iface : Iface) (isOp : Bool) (items : List Item)
    (hi : HasItems iface isOp items) (h2 : 2 ≤ items.length) (hn : (items.map (·.name)).Nodup)
    (kwargs : Args α) (m : Made α)
    (h : makeFromInterface acc side (some iface) kwargs = .ok m) :
    (∀ n ∈ kwargs.map (·.1), n ∈ items.map (·.name)) ∧
    ∃ l, m = .many l ∧
      l.length = (items.filter fun d => decide (d.name ∈ kwargs.map (·.1))).length ∧
      ∀ (i : Nat) (d : Item) (s : ComSpec α),
        (items.filter fun d => decide (d.name ∈ kwargs.map (·.1)))[i]? = some d → l[i]? = some s →
        ∃ args, dictGet kwargs d.name = some (.dict args) ∧ SpecOf side isOp d args s := by
  obtain ⟨l, e1, e2, e3⟩ := makeMany_ok hn (make_many acc side hi h2 h)
  refine ⟨e3, l, e1, by simpa using congrArg List.length e2, ?_⟩
  intro i d s hd hs
  have := congrArg (fun x => x[i]?) e2
  simp only [List.getElem?_map, hd, hs, Option.map_some, Option.some.injEq, Prod.mk.injEq] at this
  obtain ⟨k1, k2, k3⟩ := this
  exact ⟨s.args, k3.symm, k1 ▸ kindOf_for side isOp d, k2, rfl⟩

/-- C34: a name the interface does not have is rejected, whatever else the call is given. -/
theorem C34_unknown_rejected (acc : Accepts α) (side : Side) (iface : Iface) (isOp : Bool)
    (items : List Item) (hi : HasItems iface isOp items) (h2 : 2 ≤ items.length)
    (kwargs : Args α) (n : String) (hk : n ∈ kwargs.map (·.1)) (hu : n ∉ items.map (·.name)) :
    ∃ e, makeFromInterface acc side (some iface) kwargs = .error e := by
  cases h : makeFromInterface acc side (some iface) kwargs with
  | error e => exact ⟨e, rfl⟩
  | ok m =>
    have hm := make_many acc side hi h2 h
    unfold makeMany at hm
    split at hm
    · simp at hm
    · rename_i ss hs
      exact absurd (specLoop_left items hu hk hs) (by simp)
    · simp at hm

/-- C34: conversely the call succeeds when every name is known, every value is a dict the
constructor accepts, and (on the require side) the named elements can be referred to. -/
theorem C34_succeeds (acc : Accepts α) (side : Side) (iface : Iface) (isOp : Bool) (items : List Item)
    (hi : HasItems iface isOp items) (h2 : 2 ≤ items.length) (hn : (items.map (·.name)).Nodup)
    (kwargs : Args α) (hr : "cls" ∉ kwargs.map (·.1) ∧ "port_interface" ∉ kwargs.map (·.1))
    (hk : ∀ n ∈ kwargs.map (·.1), n ∈ items.map (·.name))
    (hd : ∀ p ∈ kwargs, ∃ d, p.2 = Arg.dict d)
    (ha : ∀ d ∈ items, ∀ args k, dictGet kwargs d.name = some (.dict args) → KindFor side isOp d k →
      acc k d.ref args = none)
    (href : side = .require → ∀ d ∈ items, d.name ∈ kwargs.map (·.1) → d.ref ≠ none) :
    ∃ l, makeFromInterface acc side (some iface) kwargs = .ok (.many l) := by
  have get : ∀ (kw : Args α) (n : String), n ∈ kw.map (·.1) → ∃ v, dictGet kw n = some v := by
    intro kw n hn
    induction kw with
    | nil => simp at hn
    | cons p ps ih =>
      obtain ⟨k, v⟩ := p
      by_cases e : k = n
      · exact ⟨v, by simp [dictGet, e]⟩
      · have : n ∈ ps.map (·.1) := by
          rcases List.mem_cons.mp (by simpa using hn : n ∈ k :: ps.map (·.1)) with x | x
          · exact absurd x.symm e
          · exact x
        obtain ⟨w, hw⟩ := ih this
        exact ⟨w, by simp [dictGet, e, hw]⟩
  obtain ⟨l, hl⟩ := makeMany_succeeds (acc := acc) (side := side) (kindOf := kindOf side isOp) hn hk (by
    intro d hdm hmem
    obtain ⟨v, hv⟩ := get kwargs d.name hmem
    obtain ⟨args, hargs⟩ := hd _ (dictGet_mem _ _ _ hv)
    simp only at hargs
    subst hargs
    exact ⟨args, hv, ha d hdm args _ hv (kindOf_for side isOp d), fun x => href x d hdm hmem⟩)
  refine ⟨l, ?_⟩
  unfold makeFromInterface
  have hr' : ¬ ("cls" ∈ kwargs.map (·.1) ∨ "port_interface" ∈ kwargs.map (·.1)) := by
    rintro (x | x)
    · exact hr.1 x
    · exact hr.2 x
  rw [if_neg hr']
  cases hi with
  | data _ =>
    match items, h2 with
    | d :: d' :: ds, _ =>
      simp only [(allDicts_iff kwargs).mpr hd, if_true]
      exact hl
  | ops _ =>
    match items, h2 with
    | d :: d' :: ds, _ => exact hl

/-- C34: an interface with one element takes the arguments of its only com-spec directly. -/
theorem C34_single (acc : Accepts α) (side : Side) (iface : Iface) (isOp : Bool) (d : Item)
    (hi : HasItems iface isOp [d]) (kwargs : Args α) (m : Made α)
    (h : makeFromInterface acc side (some iface) kwargs = .ok m) :
    ∃ s, m = .one s ∧ SpecOf side isOp d kwargs s := by
  have aux : ∀ k, KindFor side isOp d k → (build acc k d.ref kwargs).map Made.one = .ok m →
      ∃ s, m = .one s ∧ SpecOf side isOp d kwargs s := by
    intro k hk hb
    cases hq : build acc k d.ref kwargs with
    | error e => simp [hq, Except.map] at hb
    | ok s =>
      obtain ⟨rfl, _⟩ := build_ok hq
      simp only [hq, Except.map, Except.ok.injEq] at hb
      exact ⟨_, hb.symm, hk, rfl, rfl⟩
  unfold makeFromInterface at h
  split at h
  · simp at h
  · cases hi with
    | data _ =>
      simp only at h
      split at h
      · simp at h
      · exact aux _ (kindOf_for side false d) h
    | ops _ => exact aux _ (kindOf_for side true d) h

/-- C34: an interface without elements gives no com-spec. -/
theorem C34_empty (acc : Accepts α) (side : Side) (iface : Iface) (isOp : Bool)
    (hi : HasItems iface isOp []) (kwargs : Args α) :
    ∃ e, makeFromInterface acc side (some iface) kwargs = .error e := by
  unfold makeFromInterface
  split
  · exact ⟨_, rfl⟩
  · cases hi <;> exact ⟨_, rfl⟩

/-- C34, ports: a port is created with exactly the com-specs the interface call returns for a dict;
if that call raises, the component keeps its ports. -/
theorem C34_port (acc : Accepts α) (side : Side) (ports : List (FullPort α)) (name : String)
    (iface : Iface) (kwargs : Args α) :
    match makeFromInterface acc side (some iface) kwargs with
    | .error e => createPort acc side ports name (some iface) (.dict kwargs) = (ports, .error e)
    | .ok (.one s) => createPort acc side ports name (some iface) (.dict kwargs) =
        (ports ++ [⟨name, side, [s]⟩], .ok ⟨name, side, [s]⟩)
    | .ok (.many l) => createPort acc side ports name (some iface) (.dict kwargs) =
        (ports ++ [⟨name, side, l⟩], .ok ⟨name, side, l⟩) := by
  cases h : makeFromInterface acc side (some iface) kwargs with
  | error e => simp [createPort, portSpecs, h]
  | ok m => cases m <;> simp [createPort, portSpecs, h]

/-- C34, ports: whatever is passed, a refused port leaves the component's ports as they were. -/
theorem C34_port_refused_unchanged (acc : Accepts α) (side : Side) (ports ports' : List (FullPort α))
    (name : String) (iface : Option Iface) (arg : SpecArg α) (e : PyErr)
    (h : createPort acc side ports name iface arg = (ports', .error e)) : ports' = ports := by
  unfold createPort at h
  split at h
  · simp only [Prod.mk.injEq] at h; exact h.1.symm
  · split at h <;> simp only [Prod.mk.injEq, reduceCtorEq, and_false] at h
    exact h.1.symm

/-- The com-spec objects of a list argument, in order. -/
def objects (l : List (ListElem α)) : List (ComSpec α) :=
  l.filterMap fun e => match e with | .spec s => some s | _ => none

/-- The (name, arguments) pairs of a list argument, in order. -/
def pairs (l : List (ListElem α)) : Args α :=
  l.filterMap fun e => match e with | .pair n v => some (n, v) | _ => none

theorem dictSet_new {β : Type} (d : Dict β) (k : String) (v : β) (h : k ∉ d.map (·.1)) :
    dictSet d k v = d ++ [(k, v)] := by
  induction d with
  | nil => rfl
  | cons p d ih =>
    obtain ⟨a, b⟩ := p
    simp only [List.map_cons, List.mem_cons, not_or] at h
    have : ¬ a = k := fun e => h.1 e.symm
    simp [dictSet, this, ih h.2]

theorem sortElems_spec (l : List (ListElem α)) (done : List (ComSpec α)) (todo : Args α)
    (hl : ∀ e ∈ l, (∃ s, e = .spec s) ∨ ∃ n v, e = .pair n v)
    (hn : ((todo ++ pairs l).map (·.1)).Nodup) :
    sortElems done todo l = .ok (done ++ objects l, todo ++ pairs l) := by
  induction l generalizing done todo with
  | nil => simp [sortElems, objects, pairs]
  | cons e l ih =>
    have hl' : ∀ e ∈ l, (∃ s, e = .spec s) ∨ ∃ n v, e = .pair n v := fun x hx => hl x (by simp [hx])
    rcases hl e (by simp) with ⟨s, rfl⟩ | ⟨n, v, rfl⟩
    · have hn' : ((todo ++ pairs l).map (·.1)).Nodup := by simpa [pairs] using hn
      simp only [sortElems, ih _ _ hl' hn']
      simp [objects, pairs]
    · have hp : pairs (ListElem.pair n v :: l) = (n, v) :: pairs l := by simp [pairs]
      rw [hp] at hn
      have h1 : n ∉ todo.map (·.1) := by
        simp only [List.map_append, List.map_cons, List.nodup_append, List.mem_cons] at hn
        intro hm
        exact hn.2.2 n hm n (.inl rfl) rfl
      have h2 : (((todo ++ [(n, v)]) ++ pairs l).map (·.1)).Nodup := by simpa using hn
      simp only [sortElems, dictSet_new _ _ _ h1, ih _ _ hl' h2, hp]
      simp [objects]

/-- C34, ports given a list: com-spec objects are kept as they are, in order; pairs of name and
arguments, if there are any, are turned into com-specs through the interface and come after them. -/
theorem C34_port_list (acc : Accepts α) (side : Side) (ports : List (FullPort α)) (name : String)
    (iface : Iface) (l : List (ListElem α))
    (hl : ∀ e ∈ l, (∃ s, e = .spec s) ∨ ∃ n v, e = .pair n v) (hn : ((pairs l).map (·.1)).Nodup) :
    (pairs l = [] → createPort acc side ports name (some iface) (.iter l) =
      (ports ++ [⟨name, side, objects l⟩], .ok ⟨name, side, objects l⟩)) ∧
    (pairs l ≠ [] → ∀ ms, makeFromInterface acc side (some iface) (pairs l) = .ok (.many ms) →
      createPort acc side ports name (some iface) (.iter l) =
        (ports ++ [⟨name, side, objects l ++ ms⟩], .ok ⟨name, side, objects l ++ ms⟩)) := by
  have hs := sortElems_spec l [] [] hl (by simpa using hn)
  simp only [List.nil_append] at hs
  constructor
  · intro h0
    rw [h0] at hs
    simp [createPort, portSpecs, hs]
  · intro h0 ms hm
    cases hp : pairs l with
    | nil => exact absurd hp h0
    | cons a t =>
      rw [hp] at hs hm
      simp [createPort, portSpecs, hs, hm]

/-- C34, PR ports: the com-specs of a PR port made from two dicts are those of the two sides, the
provided ones first. -/
theorem C34_pr_port (acc : Accepts α) (iface : Iface) (prov req : Args α) (ps rs : List (ComSpec α))
    (hp : makeFromInterface acc .provide (some iface) prov = .ok (.many ps))
    (hr : makeFromInterface acc .require (some iface) req = .ok (.many rs)) :
    prSpecs acc (some iface) (.dict prov) (.dict req) =
      .ok (ps.map (fun s => (Side.provide, s)) ++ rs.map (fun s => (Side.require, s))) := by
  simp [prSpecs, prConvert, hp, hr, prHalf, PrArg.isList]

/-- C34, PR ports with a one-element interface. -/
theorem C34_pr_port_single (acc : Accepts α) (iface : Iface) (prov req : Args α) (p r : ComSpec α)
    (hp : makeFromInterface acc .provide (some iface) prov = .ok (.one p))
    (hr : makeFromInterface acc .require (some iface) req = .ok (.one r)) :
    prSpecs acc (some iface) (.dict prov) (.dict req) = .ok [(.provide, p), (.require, r)] := by
  simp [prSpecs, prConvert, hp, hr, prHalf]

/-! ### Instances and findings -/

/-- Constructors that accept everything. -/
def free : Accepts Nat := fun _ _ _ => none

/-- Two data elements, the second one queued. -/
def two : Iface := .senderReceiver [⟨"speed", some "/I/speed", false⟩, ⟨"log", some "/I/log", true⟩]

example : (match makeFromInterface free .provide (some two) [("log", .dict []), ("speed", .dict [])] with
    | .ok (.many l) => l.map fun s => (s.kind, s.target)
    | _ => []) = [(.nonqueuedSender, some "/I/speed"), (.queuedSender, some "/I/log")] := by decide

example : HasItems two false [⟨"speed", some "/I/speed", false⟩, ⟨"log", some "/I/log", true⟩] := .data _

example : (createPort free .provide [] "P" (some two)
    (.iter [.pair "log" (.dict []), .spec ⟨.server, none, []⟩])).1.map (fun p => p.specs.map (·.kind)) =
    [[.server, .queuedSender]] := by decide

def errOf {β : Type} : Except PyErr β → Option PyErr
  | .error e => some e
  | .ok _ => none

def count (r : Except PyErr (Made α)) : Option Nat :=
  match r with
  | .ok (.many l) => some l.length
  | .ok (.one _) => some 1
  | .error _ => none

/-- Findings.  Unknown names are a ValueError on the provide side but a TypeError on the require
side.  A com-spec object given by itself is dropped: the port has no com-spec.  A PR port refuses
the list its own `provided_com_spec` dict was turned into, unless the required side is a list too.
With repeated element names the second element gets no com-spec. -/
theorem C34_findings :
    errOf (makeFromInterface free .provide (some two) [("x", .dict [])]) = some .valueError ∧
    errOf (makeFromInterface free .require (some two) [("x", .dict [])]) = some .typeError ∧
    (createPort free .provide [] "P" (some two) .notIterable).1.map (fun p => p.specs.length) = [0] ∧
    errOf (prSpecs free (some two) (.dict [("log", .dict [])]) .none) = some .typeError ∧
    errOf (prSpecs free (some two) (.dict [("log", .dict [])]) (.dict [])) = none ∧
    count (makeFromInterface free .provide (some (.senderReceiver [⟨"a", none, false⟩, ⟨"a", none, true⟩]))
      [("a", .dict [])]) = some 1 := by
  decide

end Verif.Props.SwcComSpec
