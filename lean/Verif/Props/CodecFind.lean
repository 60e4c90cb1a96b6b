import Verif.Codec.FindProof
import Verif.Codec.Owner
/-
C61: references lead to the same objects after writing and reading.
-/
namespace Verif.Props.CodecFind
open Verif.Py Verif.Ref Verif.Pkg.Spec Verif.Codec Verif.Codec.Spec Verif.Codec.Find Verif.Codec.FindSpec
open Verif.Codec.Owner (partRef follow callRef clsOf shortName held refString)

/-- C61: in the document read, `find` with any string gives what it gave in the document written: it
raises the same exception, or finds nothing, or the package, element or part of the same class and name,
with the contents that remain (C22). -/
theorem C61_reload (skip stop : Bool) (version : Nat) (doc : Document) (h : WellFormedDoc doc) :
    ∃ text doc', writeDoc skip doc = .ok text ∧ readDoc stop version text = .ok doc' ∧ ∀ ref,
      (∀ e, find doc.packages ref = .error e → find doc'.packages ref = .error e) ∧
      (find doc.packages ref = .ok none → find doc'.packages ref = .ok none) ∧
      ∀ x, find doc.packages ref = .ok (some x) → ∃ x', find doc'.packages ref = .ok (some x') ∧
        Alike x x' ∧ SameItem (remainsItem x) x' := by
  obtain ⟨h1, h2, h3⟩ := h
  obtain ⟨hl, hd⟩ := looseAll_of _ h2
  obtain ⟨text, w, r, -⟩ := doc_rt skip stop version (doc := doc) ⟨h1, hl, h3⟩
  have r := r (.inr hd)
  rw [firstsAll_distinct _ hd] at r
  refine ⟨text, ⟨if skip then version else doc.schemaVersion, normPkgs doc.packages⟩, w, r, fun ref => ?_⟩
  simp only [find_norm]
  refine ⟨fun e he => by rw [he]; rfl, fun hn => by rw [hn]; rfl, fun x hx => ?_⟩
  exact ⟨normItem x, by rw [hx]; rfl, alike_item x, same_item x⟩

/-- C61: `find` with the path of a package, of an element, or of a port, component prototype, connector,
mode, transition or sub-element returns it, in the document written and in the document read. -/
theorem C61_way (skip stop : Bool) (version : Nat) (doc : Document) (h : WellFormedDoc doc) :
    ∃ text doc', writeDoc skip doc = .ok text ∧ readDoc stop version text = .ok doc' ∧
      ∀ way x, At doc.packages way x → (∀ n ∈ way, GoodName n) →
        find doc.packages (absRef way) = .ok (some x) ∧
        ∃ x', find doc'.packages (absRef way) = .ok (some x') ∧ Alike x x' ∧
          SameItem (remainsItem x) x' := by
  obtain ⟨text, doc', w, r, hf⟩ := C61_reload skip stop version doc h
  refine ⟨text, doc', w, r, fun way x hx hg => ?_⟩
  have := find_at hx h.2.1 h.2.2 hg
  exact ⟨this, (hf _).2.2 x this⟩

theorem checkDest_value {cn : String} {acc : List String} {s : String} {d : PyVal} {r : RefObj}
    (h : checkDest cn acc s d = .ok r) : r.value = s := by
  unfold checkDest at h
  split at h
  · cases h; rfl
  · cases h

theorem construct_value {cn s : String} {d : DestArg} {r : RefObj} (h : construct cn s d = .ok r) :
    r.value = s := by
  unfold construct at h
  split at h
  · cases h
  · have hb : ∀ {acc : List String} {d : PyVal}, baseInit cn acc s d = .ok r → r.value = s := by
      intro acc d hb
      unfold baseInit at hb
      split at hb
      · split at hb
        · exact checkDest_value hb
        · cases hb
        · cases hb
      · exact checkDest_value hb
    split at h
    · exact hb h
    · split at h
      · exact hb h
      · exact hb h

/-- A reference keeps the text it was given. -/
theorem callRef_value {x : Val Cls} {text : Option String} {r : RefObj}
    (h : callRef x text = .ok (some r)) : text = some r.value := by
  unfold callRef at h
  cases hc : clsOf x with
  | none => simp [hc] at h
  | some c =>
    simp only [hc] at h
    cases hm : Owner.refMethod c with
    | none => simp [hm] at h
    | some p =>
      obtain ⟨cn, d⟩ := p
      simp only [hm] at h
      cases text with
      | none => simp at h
      | some s =>
        simp only at h
        split at h
        · rename_i r' hr
          simp only [Except.ok.injEq, Option.some.injEq] at h
          subst h
          rw [construct_value hr]
        · cases h

/-- C61: what `ref()` of an element returns leads to the element, and what `ref()` of a port, component
prototype or mode returns leads to it. -/
theorem C61_ref (doc : Document) (h : WellFormedDoc doc) (way : List String) (v : Val Cls)
    (hv : ElementAt doc.packages way v) (hg : ∀ n ∈ way, GoodName n) :
    (∀ r, partRef (some (absRef way)) v [] = some (.ok (some r)) →
      find doc.packages r.value = .ok (some (.obj v))) ∧
    ∀ c a i x r, clsOf v = some c → a ∈ searched c → (members v a)[i]? = some x →
      ((findable v).map elemName).Nodup → GoodName (shortName x) →
      partRef (some (absRef way)) v [(a, i)] = some (.ok (some r)) →
      find doc.packages r.value = .ok (some (.obj x)) := by
  constructor
  · intro r hr
    simp only [partRef, follow, Option.map_some, Option.some.injEq] at hr
    have := callRef_value hr
    injection this with this
    rw [← this]
    exact find_at (.element hv) h.2.1 h.2.2 hg
  · intro c a i x r hc ha hm hn hgx hr
    have hx : held v a i = some x := by
      cases v with
      | obj d fs =>
        simp only [members] at hm
        split at hm
        · rename_i l hl
          simp only [held, hl]
          exact hm
        · simp at hm
      | _ => cases hc
    simp only [partRef, follow, hx, Option.map_some, Option.some.injEq] at hr
    have := callRef_value hr
    unfold refString at this
    rw [hc] at this
    simp only at this
    split at this
    · injection this with this
      have hname : elemName x = some (shortName x) := by
        have h0 := hgx.1
        cases x with
        | obj d fs =>
          simp only [shortName, elemName, nameOf] at h0 ⊢
          split at h0
          · rename_i s hs
            rw [hs]
          · exact absurd rfl h0
        | _ => exact absurd rfl h0
      have hmem : x ∈ findable v := by
        cases v with
        | obj d fs =>
          have hd : d = c := by simpa [clsOf] using hc
          subst hd
          simp only [findable, List.mem_flatMap]
          exact ⟨a, ha, List.mem_of_getElem? hm⟩
        | _ => cases hc
      have he : r.value = absRef (way ++ [shortName x]) := by
        rw [← this, Verif.Pkg.absRef_append, Verif.Pkg.absRef_cons, Verif.Pkg.absRef_nil]
        simp [String.append_assoc]
      rw [he]
      exact find_at (.part hv hn hmem hname) h.2.1 h.2.2 (fun m hm => by
        rcases List.mem_append.1 hm with hm | hm
        · exact hg m hm
        · rw [List.mem_singleton.1 hm]; exact hgx)
    · cases this

/-- Findings for C61: elements of the other classes have no `find`, so the references to their parts
— data elements, parameters, operations, errors, record elements — make `find` raise AttributeError.  In components
whatever follows the first name is ignored: the reference to a runnable or an event gives the port with
the name of the behaviour, or nothing. -/
theorem C61_findings (doc : Document) (h : WellFormedDoc doc) (way : List String) (v : Val Cls) (c : Cls)
    (hv : ElementAt doc.packages way v) (hc : clsOf v = some c) (n : String) (rest : List String)
    (hg : ∀ m ∈ way ++ n :: rest, GoodName m) :
    (searched c = [] → find doc.packages (absRef (way ++ n :: rest)) = .error .attributeError) ∧
    (c = .ApplicationSoftwareComponentType ∨ c = .CompositionSwComponentType →
      find doc.packages (absRef (way ++ n :: rest)) = find doc.packages (absRef (way ++ [n]))) := by
  rw [find_element hv h.2.1 h.2.2 (n :: rest) hg,
    find_element hv h.2.1 h.2.2 [n] (fun m hm => hg m (by simp at hm ⊢; exact hm.imp id Or.inl)),
    if_neg (by simp), if_neg (by simp)]
  have hn : GoodName n := hg n (by simp)
  have h1 : ∀ rest : List String, (partL '/' (relRef (n :: rest)).toList).1 = n.toList := by
    intro rest
    have := rel_cons n rest hn
    rw [rel_strip n rest hn] at this
    rw [this]
  cases v with
  | obj d fs =>
    have hd : d = c := by simpa [clsOf] using hc
    subst hd
    constructor
    · intro hs
      cases d with
      | ImplementationDataType | ModeDeclarationGroup | ApplicationSoftwareComponentType
      | CompositionSwComponentType => simp [searched] at hs
      | _ => rfl
    · rintro (rfl | rfl) <;> simp only [elemFind, h1]
  | _ => cases hc

/-- A component with two ports, its interface, and a type in a package inside. -/
def sample : Document where
  schemaVersion := 51
  packages :=
    [.mk [("name", .str "P")]
       [.obj .SenderReceiverInterface [("name", .str "If"),
          ("data_elements", .list [.obj .VariableDataPrototype [("name", .str "Speed")]])],
        .obj .ApplicationSoftwareComponentType [("name", .str "Swc"),
          ("ports", .list [.obj .ProvidePortPrototype [("name", .str "Out")],
            .obj .RequirePortPrototype [("name", .str "In")]])]]
       [.mk [("name", .str "Types")]
          [.obj .SwBaseType [("name", .str "uint8"), ("size", .num (.int 8))]] []]]

theorem sample_ok : WellFormedDoc sample := by
  refine ⟨by decide, ⟨⟨by decide +kernel, ?_, by decide +kernel, ⟨by decide +kernel, ?_,
    by decide +kernel, trivial⟩, trivial⟩, trivial⟩, by decide +kernel⟩
  · simp only [List.mem_cons, List.not_mem_nil, or_false]
    rintro v (rfl | rfl)
    · exact ⟨.SenderReceiverInterface, by decide +kernel, by decide +kernel⟩
    · exact ⟨.ApplicationSoftwareComponentType, by decide +kernel, by decide +kernel⟩
  · simp only [List.mem_singleton]
    rintro v rfl
    exact ⟨.SwBaseType, by decide +kernel, by decide +kernel⟩

/-- A type in the inner package and a port. -/
example : At sample.packages ["P", "Types", "uint8"]
      (.obj (.obj .SwBaseType [("name", .str "uint8"), ("size", .num (.int 8))])) ∧
    At sample.packages ["P", "Swc", "In"] (.obj (.obj .RequirePortPrototype [("name", .str "In")])) := by
  constructor
  · exact .element (.mk (way := ["P", "Types"]) (.inside (.head _) rfl (.here (.head _) rfl))
      (.head _) rfl)
  · refine .part (way := ["P", "Swc"]) (.mk (way := ["P"]) (.here (.head _) rfl)
      (v := .obj .ApplicationSoftwareComponentType [("name", .str "Swc"),
          ("ports", .list [.obj .ProvidePortPrototype [("name", .str "Out")],
            .obj .RequirePortPrototype [("name", .str "In")]])]) (.tail _ (.head _)) rfl) ?_ ?_ rfl
    · decide +kernel
    · simp [findable, searched, members, dictGet]

/-- The port can be referred to and found; the data element of the interface can be referred to, but
not found. -/
example : partRef (some "/P/Swc") (.obj .ApplicationSoftwareComponentType [("name", .str "Swc"),
          ("ports", .list [.obj .ProvidePortPrototype [("name", .str "Out")],
            .obj .RequirePortPrototype [("name", .str "In")]])]) [("ports", 1)] =
      some (.ok (some ⟨"PortPrototypeRef", "/P/Swc/In", "R_PORT_PROTOTYPE"⟩)) ∧
    partRef (some "/P/If") (.obj .SenderReceiverInterface [("name", .str "If"),
          ("data_elements", .list [.obj .VariableDataPrototype [("name", .str "Speed")]])])
        [("data_elements", 0)] =
      some (.ok (some ⟨"VariableDataPrototypeRef", "/P/If/Speed", "VARIABLE_DATA_PROTOTYPE"⟩)) ∧
    find sample.packages "/P/If/Speed" = .error .attributeError :=
  ⟨by decide +kernel, by decide +kernel, by rfl⟩

end Verif.Props.CodecFind
