import Verif.Codec.PortSpecProof
import Verif.Props.CodecEvent
/-
C72: communication specifications made for the interfaces of documents.
-/
set_option linter.unusedSimpArgs false
namespace Verif.Props.CodecPortSpec
open Verif.Py Verif.Ref Verif.Pkg.Spec Verif.Codec Verif.Codec.Spec Verif.Codec.Find Verif.Codec.FindSpec
open Verif.Codec.Connect (elem_wf)
open Verif.Codec.ConnectSpec Verif.Codec.PortSpec Verif.Codec.PortSpecSpec
open Verif.Codec.Older.Spec (areasNamedPkgs SameSide)
open Verif.Codec.Owner (shortName)
open Verif.Codec.Event (member_named lists)
open Verif.Swc (Side Accepts Args Arg Made ComSpec makeFromInterface createPort prSpecs)
open Verif.Props.CodecConnect (element_norm)
open Verif.Props.SwcComSpec (HasItems kindOf make_many C34_single SpecOf)
variable {α : Type}

/-! ### What is made -/

/-- A part of an interface of class `c`. -/
def itemOf (c : Cls) (way : List String) (x : Val Cls) : Swc.Item :=
  match c with
  | .SenderReceiverInterface => dataItem way x
  | _ => opItem way x

def isOp : Cls → Bool
  | .SenderReceiverInterface => false
  | _ => true

theorem item_name (c : Cls) (way : List String) (x : Val Cls) : (itemOf c way x).name = shortName x := by
  unfold itemOf; split <;> rfl

theorem item_ref (c : Cls) (way : List String) (x : Val Cls) :
    (itemOf c way x).ref = some (absRef (way ++ [shortName x])) := by
  unfold itemOf; split <;> rfl

theorem item_kind {c : Cls} {a : String} (h : Parts c a) (side : Side) (way : List String) (x : Val Cls) :
    KindOf side c x (kindOf side (isOp c) (itemOf c way x)) := by
  cases h with
  | data =>
    cases hq : isQueued x with
    | true =>
      have := (queued_iff x).1 hq
      cases side <;> simp only [isOp, kindOf, itemOf, dataItem, hq, Swc.elemKind] <;> constructor <;> exact this
    | false =>
      have : ¬ Queued x := fun h => by rw [(queued_iff x).2 h] at hq; cases hq
      cases side <;> simp only [isOp, kindOf, itemOf, dataItem, hq, Swc.elemKind] <;> constructor <;> exact this
  | operations => cases side <;> constructor

theorem kind_unique {side : Side} {o : Bool} {d : Swc.Item} {k : Swc.SpecKind}
    (h : SwcComSpec.KindFor side o d k) : kindOf side o d = k := by
  cases h <;> simp_all [kindOf, Swc.elemKind, Swc.opKind]

theorem has_items {c : Cls} {a : String} (h : Parts c a) (group : List String → Bool) (way : List String)
    (fs : List (String × Val Cls)) :
    HasItems (ifaceOf group way (.obj c fs)) (isOp c) ((members (.obj c fs) a).map (itemOf c way)) := by
  cases h <;> constructor

theorem parts_listed {c : Cls} {a : String} (h : Parts c a) : (c, a) ∈ lists := by
  cases h <;> simp [lists]

/-- C72: what a successful call returns for a sender-receiver or client-server interface whose parts (data elements,
operations) have different names. Each specification is for a part: it has the class for it (queued if and only if the
data element is), the reference that leads to it, and the arguments given under its name, or all arguments if it is
the only part. Every part named has one, in the order of the interface, and every name is that of a part. Missing:
interfaces that repeat a name (see C34). -/
theorem C72_specs_partial (acc : Accepts α) (group : List String → Bool) {ps : List Pkg} (hw : WellFormedPkgs ps)
    {way : List String} {v : Val Cls} (hat : ElementAt ps way v) {c : Cls} {a : String} (hp : Parts c a)
    (hc : classOf v = some c) (hn : ((members v a).map elemName).Nodup) (side : Side) (kwargs : Args α) (m : Made α)
    (h : makeFromInterface acc side (some (ifaceOf group way v)) kwargs = .ok m) :
    (∀ s ∈ all m, ∃ x ∈ members v a, ∃ args, IsFor side c way x args s ∧
      ((members v a = [x] ∧ args = kwargs) ∨
        ∃ n, 2 ≤ (members v a).length ∧ elemName x = some n ∧ dictGet kwargs n = some (.dict args))) ∧
    (∀ x ∈ members v a, (members v a = [x] ∨ ∃ n, elemName x = some n ∧ n ∈ kwargs.map (·.1)) →
      ∃ s ∈ all m, ∃ args, IsFor side c way x args s) ∧
    ((all m).map (·.target)).Sublist ((members v a).map fun x => (elemName x).map fun n => absRef (way ++ [n])) ∧
    (2 ≤ (members v a).length → ∀ n ∈ kwargs.map (·.1), ∃ x ∈ members v a, elemName x = some n) := by
  obtain ⟨c', fs, rfl, -, hwf⟩ := elem_wf hat hw
  cases (Option.some.inj hc : c' = c)
  have hnm : ∀ x ∈ members (.obj c fs) a, elemName x = some (shortName x) :=
    fun x hx => (member_named hwf (parts_listed hp) hx).1.name
  have hi := has_items hp group way fs
  have hisfor : ∀ x ∈ members (.obj c fs) a, ∀ s : ComSpec α, s.kind = kindOf side (isOp c) (itemOf c way x) →
      s.target = (itemOf c way x).ref → IsFor side c way x s.args s := by
    intro x hx s h1 h2
    exact ⟨h1 ▸ item_kind hp side way x, rfl, _, hnm x hx, h2.trans (item_ref c way x)⟩
  generalize hl : members (.obj c fs) a = l at hn hnm hi hisfor ⊢
  match l, hl with
  | [], _ =>
    exfalso
    unfold makeFromInterface at h
    split at h
    · cases h
    · generalize ifaceOf group way (.obj c fs) = i at h hi
      generalize isOp c = o at hi
      cases hi <;> cases h
  | [x], _ =>
    obtain ⟨s, rfl, h1, h2, h3⟩ := C34_single acc side _ _ (itemOf c way x) hi kwargs m h
    have hk : KindOf side c x s.kind := kind_unique h1 ▸ item_kind hp side way x
    have hf : IsFor side c way x kwargs s :=
      ⟨hk, h3, _, hnm x (by simp), h2.trans (item_ref c way x)⟩
    refine ⟨fun s' hs => ?_, fun y hy _ => ?_, ?_, fun h2 => absurd h2 (by simp)⟩
    · rw [all, List.mem_singleton] at hs
      subst hs
      exact ⟨x, by simp, kwargs, hf, .inl ⟨rfl, rfl⟩⟩
    · rw [List.mem_singleton] at hy
      subst hy
      exact ⟨s, by simp [all], kwargs, hf⟩
    · simp only [all, List.map_cons, List.map_nil, hnm x (by simp), Option.map_some, h2, item_ref]
      exact List.Sublist.refl _
  | x :: y :: zs, _ =>
    have hn' : (((x :: y :: zs).map (itemOf c way)).map (·.name)).Nodup := by
      rw [List.map_map]
      have e : (x :: y :: zs).map elemName =
          ((x :: y :: zs).map ((·.name) ∘ itemOf c way)).map some := by
        rw [List.map_map]
        exact List.map_congr_left fun z hz => by
          rw [hnm z hz]; simp only [Function.comp_apply, item_name]
      rw [e] at hn
      exact (List.pairwise_map.1 hn).imp fun h e => h (congrArg some e)
    obtain ⟨l, rfl, e2, e3⟩ := Swc.makeMany_ok hn' (make_many acc side hi (by simp) h)
    rw [List.filter_map, List.map_map] at e2
    refine ⟨fun s hs => ?_, fun z hz hnamed => ?_, ?_, fun _ n hk => ?_⟩
    · have := List.mem_map_of_mem (f := fun s : ComSpec α => (s.kind, s.target, some (Arg.dict s.args))) hs
      rw [show (all (Made.many l)) = l from rfl] at this
      rw [e2] at this
      obtain ⟨z, hz, hz2⟩ := List.mem_map.1 this
      have hzm := (List.mem_filter.1 hz).1
      simp only [Function.comp_apply, Prod.mk.injEq, item_name] at hz2
      exact ⟨z, hzm, s.args, hisfor z hzm s hz2.1.symm hz2.2.1.symm,
        .inr ⟨_, by simp, hnm z hzm, hz2.2.2⟩⟩
    · have hin : shortName z ∈ kwargs.map (·.1) := by
        rcases hnamed with h | ⟨n, h1, h2⟩
        · simp at h
        · rw [hnm z hz] at h1; cases h1; exact h2
      have := List.mem_map_of_mem (f := ((fun d : Swc.Item => (kindOf side (isOp c) d, d.ref, dictGet kwargs d.name)) ∘
        itemOf c way)) (List.mem_filter.2 ⟨hz, by
          simpa only [Function.comp_apply, item_name, decide_eq_true_eq] using hin⟩ :
          z ∈ (x :: y :: zs).filter ((fun d : Swc.Item => decide (d.name ∈ kwargs.map (·.1))) ∘ itemOf c way))
      rw [← e2] at this
      obtain ⟨s, hs, hs2⟩ := List.mem_map.1 this
      simp only [Function.comp_apply, Prod.mk.injEq] at hs2
      exact ⟨s, hs, s.args, hisfor z hz s hs2.1 hs2.2.1⟩
    · have e := congrArg (List.map fun p : Swc.SpecKind × Option String × Option (Arg α) => p.2.1) e2
      rw [List.map_map, List.map_map] at e
      have e' : l.map (·.target) = ((x :: y :: zs).filter
          ((fun d : Swc.Item => decide (d.name ∈ kwargs.map (·.1))) ∘ itemOf c way)).map
          (fun x => (elemName x).map fun n => absRef (way ++ [n])) := by
        refine Eq.trans e (List.map_congr_left fun z hz => ?_)
        rw [hnm z (List.mem_filter.1 hz).1]
        simp only [Function.comp_apply, item_ref, Option.map_some]
      rw [show all (Made.many l) = l from rfl, e']
      exact (List.filter_sublist).map _
    · obtain ⟨d, hd, hd2⟩ := List.mem_map.1 (e3 n hk)
      obtain ⟨z, hz, rfl⟩ := List.mem_map.1 hd
      rw [item_name] at hd2
      exact ⟨z, hz, hd2 ▸ hnm z hz⟩

/-- C72: with a reference, specifications are made exactly if it leads to an element of a package for which they are
made, and they are those.  `find` returns that element for the reference, and the way is the one to it. -/
theorem C72_found (acc : Accepts α) (group : List String → Bool) {ps : List Pkg} (hw : WellFormedPkgs ps)
    (side : Side) (ref : String) (kwargs : Args α) (m : Made α) :
    (specsFor acc group ps side ref kwargs = .ok m ↔
      ∃ way v, TypeHeader.locate ps ref = .ok (some (.element way v)) ∧
        makeFromInterface acc side (some (ifaceOf group way v)) kwargs = .ok m) ∧
    ∀ way v, TypeHeader.locate ps ref = .ok (some (.element way v)) →
      ElementAt ps way v ∧ find ps ref = .ok (some (.obj v)) := by
  constructor
  · unfold specsFor
    have hbad : ∀ i ∈ [none, some Swc.Iface.other], makeFromInterface acc side i kwargs ≠ .ok m := by
      intro i hi
      simp only [List.mem_cons, List.not_mem_nil, or_false] at hi
      unfold makeFromInterface
      split
      · simp
      · rcases hi with rfl | rfl <;> simp
    cases TypeHeader.locate ps ref with
    | error e => simp
    | ok r =>
      cases r with
      | none => simp [hbad]
      | some p =>
        cases p with
        | element way v =>
          exact ⟨fun h => ⟨way, v, rfl, h⟩, fun ⟨_, _, h1, h2⟩ => by cases h1; exact h2⟩
        | _ => simp [hbad]
  · intro way v h
    refine ⟨Event.locate_there hw h, ?_⟩
    rw [← TypeHeader.locate_find, h]
    rfl

/-- C72: in the document read, the calls have the outcomes they have in the document written: the specifications made
for an interface found by its reference, and the ports created with them. (For interfaces with mode groups: if the
groups know their interfaces in both or in neither.) -/
theorem C72_reload (skip stop : Bool) (version : Nat) (doc : Document)
    (h : WellFormedPkgs doc.packages) (hn : (doc.packages.map Pkg.name).Nodup)
    (ha : doc.schemaVersion < 50 → areasNamedPkgs doc.packages = true)
    (hv : skip = true → SameSide version doc.schemaVersion) :
    ∃ text doc', Older.writeDoc skip doc = .ok text ∧ Older.readDoc stop version text = .ok doc' ∧
      (∀ (acc : Accepts α) group side ref kwargs,
        specsFor acc group doc'.packages side ref kwargs = specsFor acc group doc.packages side ref kwargs) ∧
      ∀ way v, ElementAt doc.packages way v → ∃ v', ElementAt doc'.packages way v' ∧ Same (remains v) v' ∧
        (∀ x ∈ members v "data_elements", ∃ x' ∈ members v' "data_elements", elemName x' = elemName x ∧
          (Queued x' ↔ Queued x)) ∧
        ∀ group group', (group' way = group way ∨ ¬ ModeInterface v) →
          (∀ (acc : Accepts α) side kwargs,
            makeFromInterface acc side (some (ifaceOf group' way v')) kwargs =
              makeFromInterface acc side (some (ifaceOf group way v)) kwargs) ∧
          (∀ (acc : Accepts α) side ports name arg,
            createPort acc side ports name (some (ifaceOf group' way v')) arg =
              createPort acc side ports name (some (ifaceOf group way v)) arg) ∧
          ∀ (acc : Accepts α) prov req,
            prSpecs acc (some (ifaceOf group' way v')) prov req = prSpecs acc (some (ifaceOf group way v)) prov req := by
  obtain ⟨text, w, r⟩ := Older.doc_rt skip stop version doc h hn ha hv
  refine ⟨text, _, w, r, fun acc group side ref kwargs => specs_norm acc group _ side ref kwargs, fun way v hat => ?_⟩
  refine ⟨_, element_norm hat, same_norm false v, fun x hx => ?_, fun group group' hg => ?_⟩
  · obtain ⟨b, hb⟩ := Event.members_norm false v (a := "data_elements") (by decide)
    refine ⟨normVal tables b x, by rw [hb]; exact List.mem_map_of_mem hx, elemName_norm b x, ?_⟩
    rw [← queued_iff, ← queued_iff, queued_norm]
  · rw [iface_norm, iface_group group group' way v hg]
    exact ⟨fun _ _ _ => rfl, fun _ _ _ _ _ => rfl, fun _ _ _ => rfl⟩

/-- C72: a port for a mode switch interface can be given a specification if the mode group was made with
`create_mode_group`; once the interface has been loaded from a file, the group does not know it, and the same call
raises AssertionError. -/
theorem C72_loaded_finding (acc : Accepts α) (way : List String) (v g : Val Cls)
    (hc : classOf v = some .ModeSwitchInterface) (hg : field v "mode_group" = some g) (side : Side) (kwargs : Args α)
    (hk : "cls" ∉ kwargs.map (·.1) ∧ "port_interface" ∉ kwargs.map (·.1))
    (ha : acc (Swc.modeKind side) (some (absRef (way ++ [shortName g]))) kwargs = none) :
    makeFromInterface acc side (some (ifaceOf (fun _ => true) way v)) kwargs =
      .ok (.one ⟨Swc.modeKind side, some (absRef (way ++ [shortName g])), kwargs⟩) ∧
    makeFromInterface acc side (some (ifaceOf (fun _ => false) way v)) kwargs = .error .assertionError := by
  have hk' : ¬ ("cls" ∈ kwargs.map (·.1) ∨ "port_interface" ∈ kwargs.map (·.1)) := fun x => x.elim hk.1 hk.2
  rw [Connect.field_attr] at hg
  cases v with
  | obj c fs =>
    cases (Option.some.inj hc : c = _)
    constructor
    · simp only [makeFromInterface, if_neg hk', ifaceOf, hg, Option.map_some, if_true, Swc.build, ha, Except.map]
    · simp only [makeFromInterface, if_neg hk', ifaceOf, hg, Option.map_some, Bool.false_eq_true, if_false]
  | _ => cases hc

/-! ### Examples -/

def plain : Val Cls := .obj .VariableDataPrototype [("name", .str "Speed")]

def queue : Val Cls := .obj .VariableDataPrototype [("name", .str "Request"),
  ("sw_data_def_props", .obj .SwDataDefProps [("variants", .list [.obj .SwDataDefPropsConditional
    [("impl_policy", .enum ⟨"SwImplPolicy", "QUEUED"⟩)]])])]

def signals : Val Cls :=
  .obj .SenderReceiverInterface [("name", .str "Signals"), ("data_elements", .list [plain, queue])]

def sample : Document := ⟨51, [.mk [("name", .str "I")] [signals, CodecEvent.switch] []]⟩

theorem sample_wf : WellFormedPkgs sample.packages := by
  have h1 : WellFormed .SenderReceiverInterface signals := ⟨by decide +kernel, by decide +kernel⟩
  have h2 : WellFormed .ModeSwitchInterface CodecEvent.switch := ⟨by decide +kernel, by decide +kernel⟩
  simp only [sample, WellFormedPkgs, WellFormedPkg, List.mem_cons, List.not_mem_nil, or_false, and_true]
  refine ⟨⟨by decide +kernel, by decide +kernel⟩, ?_, by decide +kernel⟩
  rintro v (rfl | rfl)
  · exact ⟨_, by decide +kernel, h1⟩
  · exact ⟨_, by decide +kernel, h2⟩

theorem signals_at : ElementAt sample.packages ["I", "Signals"] signals :=
  .mk (way := ["I"]) (.here (p := .mk [("name", .str "I")] [signals, CodecEvent.switch] []) (by simp [sample]) rfl)
    (by simp [Pkg.elements]) rfl

/-- Arguments under the names of both elements. -/
def given : Args Nat := [("Request", .dict [("queue_length", .other 10)]), ("Speed", .dict [])]

/-- Everything is accepted. -/
def anything : Accepts Nat := fun _ _ _ => none

/-- The hypotheses of `C72_specs_partial` hold, and what it says of the specifications. -/
example : ∃ m, makeFromInterface anything .require (some (ifaceOf (fun _ => false) ["I", "Signals"] signals)) given =
      .ok m ∧ (all m).map (·.target) = [some "/I/Signals/Speed", some "/I/Signals/Request"] ∧
      (all m).map (·.kind) = [.nonqueuedReceiver, .queuedReceiver] ∧
      ∀ s ∈ all m, ∃ x ∈ members signals "data_elements", ∃ args,
        IsFor .require .SenderReceiverInterface ["I", "Signals"] x args s :=
  ⟨_, rfl, by decide +kernel, by decide +kernel, fun s hs =>
    let ⟨x, hx, args, h, _⟩ := (C72_specs_partial anything (fun _ => false) sample_wf signals_at .data rfl
      (by decide +kernel) .require given _ rfl).1 s hs
    ⟨x, hx, args, h⟩⟩

/-- The reference leads to the interface. -/
example : TypeHeader.locate sample.packages "/I/Signals" = .ok (some (.element ["I", "Signals"] signals)) := rfl

example : Queued queue ∧ ¬ Queued plain := by
  rw [← queued_iff, ← queued_iff]
  decide +kernel

/-- The same specifications are made for the interface of the document read. -/
example : ∃ text doc', Older.writeDoc false sample = .ok text ∧ Older.readDoc false 51 text = .ok doc' ∧
    specsFor anything (fun _ => false) doc'.packages .provide "/I/Signals" given =
      specsFor anything (fun _ => false) sample.packages .provide "/I/Signals" given :=
  let ⟨text, doc', w, r, h, _⟩ := C72_reload (α := Nat) false false 51 sample sample_wf (by decide)
    (fun h => absurd h (by decide)) (fun h => by cases h)
  ⟨text, doc', w, r, h anything _ .provide _ given⟩

/-- An interface with a mode group, before and after. -/
example : (∃ s, makeFromInterface anything .provide (some (ifaceOf (fun _ => true) ["I", "M"] CodecEvent.switch)) [] =
      .ok (.one s) ∧ s.target = some "/I/M/G") ∧
    makeFromInterface anything .provide (some (ifaceOf (fun _ => false) ["I", "M"] CodecEvent.switch)) [] =
      .error .assertionError := by
  have h := C72_loaded_finding anything ["I", "M"] CodecEvent.switch CodecEvent.group rfl rfl .provide [] (by simp) rfl
  exact ⟨⟨_, h.1, by decide +kernel⟩, h.2⟩

end Verif.Props.CodecPortSpec
