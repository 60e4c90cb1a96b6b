import Verif.Ref.Model
import Verif.Enums.Model
/-
C08, C09, C38, C39, C40: reference objects, attribute assignment, reference strings,
behaviour settings.
-/
set_option linter.unusedSimpArgs false
namespace Verif.Props.Ref
open Verif Verif.Py Verif.Ref

/-! ### Specification -/

/-- The destinations class `cn` accepts are `acc` (and `cn` is one of the classes). -/
def Accepts (cn : String) (acc : List String) : Prop :=
  ∃ d, (cn, (⟨acc, d⟩ : RefClass)) ∈ refClasses

/-- A reference object that can exist: its `dest` is accepted by its class. -/
def Valid (r : RefObj) : Prop := ∃ acc, Accepts r.cls acc ∧ r.dest ∈ acc

/-- The value is a string and the class has one destination, or it is a reference of the
class itself or with an accepted destination. -/
def Compatible (cn : String) (acc : List String) : PyVal → Prop
  | .str _ => acc.length = 1
  | .ref r => r.cls = cn ∨ r.dest ∈ acc
  | _ => False

/-- The path a value spells. -/
def pathOf : PyVal → Option String
  | .str s => some s
  | .ref r => some r.value
  | _ => none

/-! ### Whole-table facts -/

theorem names_nodup : (refClasses.map (·.1)).Nodup := by decide +kernel

theorem defaults_match : (refClasses.all fun p =>
    match p.2.accepted, p.2.default with
    | [x], some d => decide (x = d)
    | [_], none => true
    | [], _ => false
    | _ :: _ :: _, some _ => false
    | _ :: _ :: _, none => true) = true := by decide +kernel

theorem dictGet_of_mem_nodup {α : Type} (d : Dict α) (k : String) (v : α)
    (hn : (d.map (·.1)).Nodup) (hm : (k, v) ∈ d) : dictGet d k = some v := by
  induction d with
  | nil => simp at hm
  | cons p rest ih =>
    obtain ⟨k', v'⟩ := p
    simp only [List.map_cons, List.nodup_cons] at hn
    simp only [List.mem_cons] at hm
    rcases hm with h | h
    · simp only [Prod.mk.injEq] at h
      simp [dictGet, h.1, h.2]
    · have : k' ≠ k := by
        rintro rfl
        exact hn.1 (List.mem_map.2 ⟨_, h, rfl⟩)
      simp only [dictGet, this, if_false]
      exact ih hn.2 h

theorem lookup_of_accepts {cn : String} {acc : List String} (h : Accepts cn acc) :
    ∃ d, dictGet refClasses cn = some ⟨acc, d⟩ := by
  obtain ⟨d, hd⟩ := h
  exact ⟨d, dictGet_of_mem_nodup _ _ _ names_nodup hd⟩

theorem accepts_of_lookup {cn : String} {rc : RefClass} (h : dictGet refClasses cn = some rc) :
    Accepts cn rc.accepted := ⟨rc.default, dictGet_mem _ _ _ h⟩

theorem accepts_unique {cn : String} {a b : List String} (ha : Accepts cn a) (hb : Accepts cn b) :
    a = b := by
  obtain ⟨d, hd⟩ := lookup_of_accepts ha
  obtain ⟨e, he⟩ := lookup_of_accepts hb
  rw [hd] at he
  simp only [Option.some.injEq, RefClass.mk.injEq] at he
  exact he.1

theorem accepts_ne_nil {cn : String} {a : List String} (ha : Accepts cn a) : a ≠ [] := by
  obtain ⟨d, hd⟩ := ha
  have := List.all_eq_true.1 defaults_match _ hd
  rintro rfl
  simp at this

/-- Without a destination, or with a wrong one, `BaseRef.__init__` never succeeds wrongly. -/
theorem baseInit_ok {cn : String} {acc : List String} {value : String} {d : PyVal} {r : RefObj}
    (h : baseInit cn acc value d = .ok r) : r.cls = cn ∧ r.value = value ∧ r.dest ∈ acc := by
  have key : ∀ d : PyVal, checkDest cn acc value d = .ok r →
      r.cls = cn ∧ r.value = value ∧ r.dest ∈ acc := by
    intro d hd
    unfold checkDest at hd
    cases hx : destIn acc d with
    | none => rw [hx] at hd; simp at hd
    | some m =>
      rw [hx] at hd
      simp only [Except.ok.injEq] at hd
      subst hd
      refine ⟨rfl, rfl, ?_⟩
      unfold destIn at hx
      split at hx
      · split at hx
        · simp only [Option.some.injEq] at hx; rw [← hx]; assumption
        · simp at hx
      · simp at hx
  unfold baseInit at h
  cases d with
  | none =>
    match acc, h with
    | [x], h => exact key _ h
    | [], h => simp at h
    | _ :: _ :: _, h => simp at h
  | bool b => exact key _ h
  | int i => exact key _ h
  | float f => exact key _ h
  | str s => exact key _ h
  | enum c m => exact key _ h
  | ref r => exact key _ h
  | other t => exact key _ h

theorem destIn_enum (acc : List String) (m : String) :
    destIn acc (.enum "IdentifiableSubTypes" m) = if m ∈ acc then some m else none := rfl

/-! ### C08 -/

/-- C08: whatever arguments a reference constructor is given, an object that comes into
existence has a `dest` its class accepts, and the class and value asked for. -/
theorem C08_dest_accepted (cn value : String) (dest : DestArg) (r : RefObj)
    (h : construct cn value dest = .ok r) : r.cls = cn ∧ r.value = value ∧ Valid r := by
  unfold construct at h
  cases hl : dictGet refClasses cn with
  | none => rw [hl] at h; simp at h
  | some rc =>
    rw [hl] at h
    have key : ∀ d, baseInit cn rc.accepted value d = .ok r →
        r.cls = cn ∧ r.value = value ∧ Valid r := by
      intro d hd
      obtain ⟨h1, h2, h3⟩ := baseInit_ok hd
      refine ⟨h1, h2, rc.accepted, ?_, h3⟩
      rw [h1]; exact accepts_of_lookup hl
    cases dest with
    | given d => exact key _ h
    | omitted =>
      simp only at h
      cases hd : rc.default with
      | none => rw [hd] at h; exact key _ h
      | some m => rw [hd] at h; exact key _ h

example : construct "UnitRef" "/Units/Km" .omitted = .ok ⟨"UnitRef", "/Units/Km", "UNIT"⟩ := by
  decide +kernel

/-- C08: for a class with one accepted destination, leaving `dest` out (or passing `None`)
yields that destination. -/
theorem C08_single_default (cn value x : String) (h : Accepts cn [x]) :
    construct cn value .omitted = .ok ⟨cn, value, x⟩ ∧
    construct cn value (.given .none) = .ok ⟨cn, value, x⟩ := by
  obtain ⟨d, hd⟩ := lookup_of_accepts h
  have hm := List.all_eq_true.1 defaults_match _ (dictGet_mem _ _ _ hd)
  constructor
  · cases d with
    | none => simp [construct, hd, baseInit, checkDest, destIn_enum]
    | some y =>
      simp only [decide_eq_true_eq] at hm
      subst hm
      simp [construct, hd, baseInit, checkDest, destIn_enum]
  · simp [construct, hd, baseInit, checkDest, destIn_enum]

example : Accepts "PackageRef" ["AR_PACKAGE"] := ⟨some "AR_PACKAGE", by decide +kernel⟩

/-- C08: for a class with several accepted destinations leaving `dest` out is an error.
The exception is `TypeError`: the code's own `ValueError` is never reached because its
message sorts enumeration members. -/
theorem C08_several_need_dest (cn value : String) (acc : List String) (h : Accepts cn acc)
    (h2 : 2 ≤ acc.length) :
    construct cn value .omitted = .error .typeError ∧
    construct cn value (.given .none) = .error .typeError := by
  obtain ⟨d, hd⟩ := lookup_of_accepts h
  have hm := List.all_eq_true.1 defaults_match _ (dictGet_mem _ _ _ hd)
  match acc, h2 with
  | a :: b :: rest, _ =>
    cases d with
    | some y => simp at hm
    | none => simp [construct, hd, baseInit]

example : Accepts "SwComponentTypeRef"
    ["APPLICATION_SW_COMPONENT_TYPE", "COMPOSITION_SW_COMPONENT_TYPE"] :=
  ⟨none, by decide +kernel⟩

/-- C08: an explicitly given destination is taken if accepted and refused with ValueError
otherwise; anything that is not a destination type at all is refused too. -/
theorem C08_given_dest (cn value : String) (acc : List String) (h : Accepts cn acc) :
    (∀ m, construct cn value (.given (.enum "IdentifiableSubTypes" m)) =
      if m ∈ acc then .ok ⟨cn, value, m⟩ else .error .valueError) ∧
    (∀ v, v ≠ .none → (∀ m, v ≠ .enum "IdentifiableSubTypes" m) →
      construct cn value (.given v) = .error .valueError) := by
  obtain ⟨d, hd⟩ := lookup_of_accepts h
  constructor
  · intro m
    simp only [construct, hd, baseInit, checkDest, destIn_enum]
    by_cases hm : m ∈ acc <;> simp [hm]
  · intro v hv hne
    have hx : destIn acc v = none := by
      unfold destIn
      split
      · rename_i m
        exact absurd rfl (hne m)
      · rfl
    cases v with
    | none => exact absurd rfl hv
    | _ => simp [construct, hd, baseInit, checkDest, hx]

example : construct "PortPrototypeRef" "/Swc/P" (.given (.enum "IdentifiableSubTypes" "UNIT")) =
    .error .valueError := by decide +kernel

/-- C08: a reference to a port counts as one to a provided port exactly if a reference for provided ports can have its
destination type, and likewise for required ports.  It is at least one of them, and both exactly for PR-ports. -/
theorem C08_port_sides (r : RefObj) (h : Valid r) (hc : r.cls = "PortPrototypeRef") :
    (isProvidePortRef r = true ↔
      ∃ acc, Accepts "AbstractProvidedPortPrototypeRef" acc ∧ r.dest ∈ acc) ∧
    (isRequirePortRef r = true ↔
      ∃ acc, Accepts "AbstractRequiredPortPrototypeRef" acc ∧ r.dest ∈ acc) ∧
    (isProvidePortRef r = true ∨ isRequirePortRef r = true) ∧
    (isProvidePortRef r = true ∧ isRequirePortRef r = true ↔ r.dest = "PR_PORT_PROTOTYPE") := by
  have uniq : ∀ {cn acc acc'}, Accepts cn acc → Accepts cn acc' → acc = acc' := by
    intro cn acc acc' h1 h2
    obtain ⟨d, hd⟩ := lookup_of_accepts h1
    obtain ⟨d', hd'⟩ := lookup_of_accepts h2
    rw [hd] at hd'
    cases hd'
    rfl
  have hp : Accepts "AbstractProvidedPortPrototypeRef"
      ["ABSTRACT_PROVIDED_PORT_PROTOTYPE", "P_PORT_PROTOTYPE", "PR_PORT_PROTOTYPE"] :=
    ⟨_, dictGet_mem _ _ _ (by rfl)⟩
  have hr : Accepts "AbstractRequiredPortPrototypeRef"
      ["ABSTRACT_REQUIRED_PORT_PROTOTYPE", "PR_PORT_PROTOTYPE", "R_PORT_PROTOTYPE"] :=
    ⟨_, dictGet_mem _ _ _ (by rfl)⟩
  have ha : Accepts "PortPrototypeRef" ["ABSTRACT_PROVIDED_PORT_PROTOTYPE", "ABSTRACT_REQUIRED_PORT_PROTOTYPE",
      "P_PORT_PROTOTYPE", "PR_PORT_PROTOTYPE", "R_PORT_PROTOTYPE"] := ⟨_, dictGet_mem _ _ _ (by rfl)⟩
  obtain ⟨acc, hacc, hin⟩ := h
  rw [hc] at hacc
  cases uniq hacc ha
  obtain ⟨cls, value, dest⟩ := r
  have e1 : ∀ l cn, Accepts cn l → ((∃ acc, Accepts cn acc ∧ dest ∈ acc) ↔ dest ∈ l) :=
    fun l cn hl => ⟨fun ⟨acc, h1, h2⟩ => uniq h1 hl ▸ h2, fun h => ⟨l, hl, h⟩⟩
  rw [e1 _ _ hp, e1 _ _ hr]
  simp only [List.mem_cons, List.not_mem_nil, or_false] at hin
  rcases hin with rfl | rfl | rfl | rfl | rfl <;> simp [isProvidePortRef, isRequirePortRef]

/-- A reference to a PR-port is both. -/
example : Valid ⟨"PortPrototypeRef", "/C/Port", "PR_PORT_PROTOTYPE"⟩ := ⟨_, ⟨_, dictGet_mem _ _ _ (by rfl)⟩, by decide⟩

/-- C08: every destination any reference class accepts is a member of the destination
enumeration and has an XML text at the default schema version. -/
theorem C08_dests_writable (r : RefObj) (h : Valid r) :
    (⟨"IdentifiableSubTypes", r.dest⟩ : Enums.Member).exists? = true ∧
    ∃ t, Enums.enumToXml ⟨"IdentifiableSubTypes", r.dest⟩ Enums.defaultVersion = .ok t := by
  obtain ⟨acc, ⟨d, hm⟩, hin⟩ := h
  have hall : (refClasses.all fun p => p.2.accepted.all fun m =>
      (⟨"IdentifiableSubTypes", m⟩ : Enums.Member).exists? &&
      (Enums.enumToXml ⟨"IdentifiableSubTypes", m⟩ Enums.defaultVersion).isOk) = true := by
    decide +kernel
  have := List.all_eq_true.1 (List.all_eq_true.1 hall _ hm) _ hin
  simp only [Bool.and_eq_true] at this
  refine ⟨this.1, ?_⟩
  cases he : Enums.enumToXml ⟨"IdentifiableSubTypes", r.dest⟩ Enums.defaultVersion with
  | ok t => exact ⟨t, rfl⟩
  | error e => rw [he] at this; simp [Except.isOk, Except.toBool] at this

example : Valid ⟨"UnitRef", "/Units/Km", "UNIT"⟩ :=
  ⟨["UNIT"], ⟨some "UNIT", by decide +kernel⟩, by simp⟩

/-! ### C09 -/

/-- C09: assigning a compatible value succeeds; the attribute then holds a valid reference
of the attribute's class with the value's path, keeping the destination of a reference;
other attributes are untouched. -/
theorem C09_compatible_accepted (cast : String → PyVal → Except PyErr PyVal) (o : Attrs)
    (attr cn : String) (acc : List String) (v : PyVal) (hcn : Accepts cn acc)
    (hv : ∀ r, v = .ref r → Valid r) (hc : Compatible cn acc v) :
    ∃ r, assign cast o attr v (.refClass cn) = (setAttr o attr (.ref r), .ok ()) ∧
      r.cls = cn ∧ some r.value = pathOf v ∧ r.dest ∈ acc ∧
      (∀ r', v = .ref r' → r.dest = r'.dest) := by
  obtain ⟨d, hd⟩ := lookup_of_accepts hcn
  have hne := accepts_ne_nil hcn
  cases v with
  | str s =>
    simp only [Compatible] at hc
    match acc, hc with
    | [x], _ =>
      refine ⟨⟨cn, s, x⟩, ?_, rfl, rfl, by simp, by simp⟩
      simp [assign, checkAndSetReference, checkReference, hd, construct, baseInit, checkDest, destIn_enum]
  | ref r =>
    simp only [Compatible] at hc
    have hin : r.dest ∈ acc := by
      rcases hc with hc | hc
      · obtain ⟨acc', ha, hm⟩ := hv r rfl
        rw [hc] at ha
        rw [accepts_unique hcn ha]; exact hm
      · exact hc
    refine ⟨⟨cn, r.value, r.dest⟩, ?_, rfl, rfl, hin, by simp⟩
    have hl : acc.length ≠ 0 := by simpa using hne
    simp [assign, checkAndSetReference, checkReference, hd, construct, baseInit, checkDest, destIn_enum,
      hin, hl, hne]
  | none => exact absurd hc (by simp [Compatible])
  | bool b => exact absurd hc (by simp [Compatible])
  | int i => exact absurd hc (by simp [Compatible])
  | float f => exact absurd hc (by simp [Compatible])
  | enum c m => exact absurd hc (by simp [Compatible])
  | other t => exact absurd hc (by simp [Compatible])

/-- C09: assigning anything else raises TypeError and leaves the object as it was. -/
theorem C09_incompatible_rejected (cast : String → PyVal → Except PyErr PyVal) (o : Attrs)
    (attr cn : String) (acc : List String) (v : PyVal) (hcn : Accepts cn acc)
    (hc : ¬ Compatible cn acc v) :
    assign cast o attr v (.refClass cn) = (o, .error .typeError) := by
  obtain ⟨d, hd⟩ := lookup_of_accepts hcn
  have hne := accepts_ne_nil hcn
  have hl : acc.length ≠ 0 := by simpa using hne
  cases v with
  | str s =>
    simp only [Compatible] at hc
    match acc, hc, hl with
    | a :: b :: rest, _, _ => simp [assign, checkAndSetReference, checkReference, hd]
    | [x], hc, _ => simp at hc
  | ref r =>
    simp only [Compatible] at hc
    simp [assign, checkAndSetReference, checkReference, hd, hl, hne, hc]
  | none => simp [assign, checkAndSetReference, checkReference, hd, hne]
  | bool b => simp [assign, checkAndSetReference, checkReference, hd, hne]
  | int i => simp [assign, checkAndSetReference, checkReference, hd, hne]
  | float f => simp [assign, checkAndSetReference, checkReference, hd, hne]
  | enum c m => simp [assign, checkAndSetReference, checkReference, hd, hne]
  | other t => simp [assign, checkAndSetReference, checkReference, hd, hne]

example : Compatible "AutosarDataTypeRef" ["IMPLEMENTATION_DATA_TYPE"]
    (.ref ⟨"ImplementationDataTypeRef", "/T", "IMPLEMENTATION_DATA_TYPE"⟩) := by
  simp [Compatible]

example : ¬ Compatible "AutosarDataTypeRef" ["APPLICATION_DATA_TYPE", "IMPLEMENTATION_DATA_TYPE"]
    (.str "/T") := by simp [Compatible]

/-- C09 over histories: through any sequence of assignments to an object whose attribute
`attr` is of reference class `cn`, the attribute holds `None` or a valid `cn` reference. -/
theorem C09_history (cast : String → PyVal → Except PyErr PyVal) (cls : String → Guard)
    (attr cn : String) (acc : List String) (hcn : Accepts cn acc)
    (hg : cls attr = .typed (.refClass cn)) (o : Attrs)
    (ho : o attr = .none ∨ ∃ r, o attr = .ref r ∧ r.cls = cn ∧ Valid r)
    (steps : List (String × PyVal)) :
    runAssigns cast cls o steps attr = .none ∨
      ∃ r, runAssigns cast cls o steps attr = .ref r ∧ r.cls = cn ∧ Valid r := by
  induction steps generalizing o with
  | nil => exact ho
  | cons s rest ih =>
    obtain ⟨a, v⟩ := s
    simp only [runAssigns]
    apply ih
    by_cases ha : a = attr
    · subst ha
      rw [hg]
      simp only [guardedAssign, assignOptional, assign, checkAndSetReference]
      split
      · exact ho
      · cases hr : checkReference cn v with
        | error e => exact ho
        | ok r =>
          right
          refine ⟨r, by simp [setAttr], ?_⟩
          obtain ⟨d, hd⟩ := lookup_of_accepts hcn
          unfold checkReference at hr
          rw [hd] at hr
          simp only at hr
          split at hr
          · simp at hr
          · split at hr
            · split at hr
              · obtain ⟨h1, -, h3⟩ := C08_dest_accepted _ _ _ _ hr
                exact ⟨h1, h3⟩
              · simp at hr
            · split at hr
              · obtain ⟨h1, -, h3⟩ := C08_dest_accepted _ _ _ _ hr
                exact ⟨h1, h3⟩
              · simp at hr
            · simp at hr
    · have key : ∀ (w : PyVal), setAttr o a w attr = o attr := by
        intro w
        have : attr ≠ a := fun e => ha e.symm
        simp [setAttr, this]
      have : (guardedAssign cast o a v (cls a)).1 attr = o attr := by
        unfold guardedAssign assignOptionalPositiveInt setPositiveInt assignOptional assign
          setStrictEnum checkAndSetReference setCast assignIntOrPattern
        split <;> (try split) <;> (try split) <;> (try split) <;> (try split) <;>
          first | rfl | exact key _
      rw [this]
      exact ho

/-! ### C38 -/

/-- C38: a reference string split by `split_ref` and joined with '/' is the string without
one leading slash; every segment is free of slashes. -/
theorem C38_split_join (s : String) (segs : List (List Char))
    (h : splitRef (.str s) = .ok (some segs)) :
    (s = String.ofList ('/' :: joinL '/' segs) ∨
      (s = String.ofList (joinL '/' segs) ∧ s.toList.head? ≠ some '/')) ∧
    ∀ seg ∈ segs, '/' ∉ seg := by
  simp only [splitRef] at h
  cases hs : s.toList with
  | nil => rw [hs] at h; simp at h
  | cons c cs =>
    rw [hs] at h
    simp only at h
    have hs' : s = String.ofList (c :: cs) := by rw [← hs, String.ofList_toList]
    split at h
    · rename_i hc
      simp only [Except.ok.injEq, Option.some.injEq] at h
      subst h; subst hc
      refine ⟨Or.inl ?_, fun seg hseg => not_mem_splitL _ _ _ hseg⟩
      rw [joinL_splitL]; exact hs'
    · rename_i hc
      simp only [Except.ok.injEq, Option.some.injEq] at h
      subst h
      refine ⟨Or.inr ⟨?_, by simp [hc]⟩, fun seg hseg => not_mem_splitL _ _ _ hseg⟩
      rw [joinL_splitL]; exact hs'

/-- C38: joining slash-free segments (at least one, the first not empty) and splitting gives
the segments back, with or without a leading slash. -/
theorem C38_join_split (segs : List (List Char)) (hne : segs ≠ [])
    (h : ∀ seg ∈ segs, '/' ∉ seg) :
    splitRef (.str (String.ofList ('/' :: joinL '/' segs))) = .ok (some segs) ∧
    (segs.head? ≠ some [] →
      splitRef (.str (String.ofList (joinL '/' segs))) = .ok (some segs)) := by
  constructor
  · simp [splitRef, String.toList_ofList, splitL_joinL _ _ hne h]
  · intro hh
    have hsp := splitL_joinL '/' segs hne h
    match segs, hne, hh with
    | seg :: rest, _, hh =>
      match seg, hh with
      | c :: cs, _ =>
        have hc : c ≠ '/' := by
          have := h (c :: cs) (by simp)
          simp at this
          exact fun e => this.1 e.symm
        have : ∃ tl, joinL '/' ((c :: cs) :: rest) = c :: tl := by
          cases rest with
          | nil => exact ⟨cs, rfl⟩
          | cons r rs => exact ⟨_, rfl⟩
        obtain ⟨tl, htl⟩ := this
        rw [htl] at hsp ⊢
        simp [splitRef, String.toList_ofList, hc, hsp]

example : splitRef (.str "/Types/Base/uint8") =
    .ok (some ["Types".toList, "Base".toList, "uint8".toList]) := by decide

/-- C38: the empty string is the one string `split_ref` fails on (IndexError), and non-strings
give `None`. -/
theorem C38_split_total (v : PyVal) :
    (∃ segs, splitRef v = .ok (some segs)) ↔ ∃ s, v = .str s ∧ s ≠ "" := by
  constructor
  · rintro ⟨segs, h⟩
    cases v with
    | str s =>
      refine ⟨s, rfl, ?_⟩
      rintro rfl
      simp [splitRef] at h
    | _ => simp [splitRef] at h
  · rintro ⟨s, rfl, hs⟩
    cases hl : s.toList with
    | nil => exact absurd (String.toList_eq_nil_iff.1 hl) hs
    | cons c cs =>
      by_cases hc : c = '/'
      · exact ⟨_, by simp [splitRef, hl, hc]; rfl⟩
      · exact ⟨_, by simp [splitRef, hl, hc]; rfl⟩

theorem C38_split_empty : splitRef (.str "") = .error .indexError := by decide

/-- C38: `split_ref_strict` accepts exactly the non-empty strings without a leading slash,
with the same segments as `split_ref`; other strings raise ValueError, non-strings TypeError. -/
theorem C38_strict (v : PyVal) :
    (∀ segs, splitRefStrict v = .ok segs ↔
      (splitRef v = .ok (some segs) ∧ ∃ s, v = .str s ∧ s ≠ "" ∧ s.toList.head? ≠ some '/')) ∧
    (splitRefStrict v = .error .valueError ↔
      ∃ s, v = .str s ∧ (s = "" ∨ s.toList.head? = some '/')) ∧
    (splitRefStrict v = .error .typeError ↔ ∀ s, v ≠ .str s) := by
  cases v with
  | str s =>
    cases hl : s.toList with
    | nil =>
      have hs : s = "" := String.toList_eq_nil_iff.1 hl
      subst hs
      simp [splitRefStrict, splitRef]
    | cons c cs =>
      have hs : s ≠ "" := by rintro rfl; simp at hl
      by_cases hc : c = '/'
      · simp [splitRefStrict, splitRef, hl, hc, hs]
      · simp [splitRefStrict, splitRef, hl, hc, hs]
  | _ => simp [splitRefStrict, splitRef]

example : splitRefStrict (.str "Swc/Port") = .ok ["Swc".toList, "Port".toList] := by decide

/-! ### C40 -/

/-- A value a positive-integer attribute may hold. -/
def NonNegInt : PyVal → Prop
  | .int i => 0 ≤ i
  | .bool _ => True
  | _ => False

theorem guarded_other (cast : String → PyVal → Except PyErr PyVal) (o : Attrs) (a b : String)
    (v : PyVal) (g : Guard) (h : b ≠ a) : (guardedAssign cast o a v g).1 b = o b := by
  have key : ∀ (w : PyVal), setAttr o a w b = o b := by
    intro w; simp [setAttr, h]
  unfold guardedAssign assignOptionalPositiveInt setPositiveInt assignOptional assign
    setStrictEnum checkAndSetReference setCast assignIntOrPattern
  split <;> (try split) <;> (try split) <;> (try split) <;> (try split) <;>
    first | rfl | exact key _

/-- C40: a positive-integer attribute holds `None` or a non-negative integer through any
sequence of assignments to the object's attributes, accepted or rejected. -/
theorem C40_history (cast : String → PyVal → Except PyErr PyVal) (cls : String → Guard)
    (attr : String) (hg : cls attr = .positive) (o : Attrs)
    (ho : o attr = .none ∨ NonNegInt (o attr)) (steps : List (String × PyVal)) :
    runAssigns cast cls o steps attr = .none ∨ NonNegInt (runAssigns cast cls o steps attr) := by
  induction steps generalizing o with
  | nil => exact ho
  | cons s rest ih =>
    obtain ⟨a, v⟩ := s
    simp only [runAssigns]
    apply ih
    by_cases ha : attr = a
    · subst ha
      rw [hg]
      cases v with
      | int i =>
        by_cases hi : i < 0
        · simpa [guardedAssign, assignOptionalPositiveInt, setPositiveInt, asInt, hi] using ho
        · right
          simp [guardedAssign, assignOptionalPositiveInt, setPositiveInt, asInt, hi, setAttr,
            NonNegInt]
          omega
      | bool b =>
        right
        cases b <;>
          simp [guardedAssign, assignOptionalPositiveInt, setPositiveInt, asInt, setAttr, NonNegInt]
      | _ => simpa [guardedAssign, assignOptionalPositiveInt, setPositiveInt, asInt] using ho
    · rw [guarded_other _ _ _ _ _ _ ha]; exact ho

/-- C40: the outcome of one assignment.  `None` is ignored, a non-negative integer is stored,
a negative one raises ValueError and anything else TypeError, both without any change. -/
theorem C40_decision (o : Attrs) (attr : String) (v : PyVal) :
    assignOptionalPositiveInt o attr v =
      match v with
      | .none => (o, .ok ())
      | .int i => if 0 ≤ i then (setAttr o attr (.int i), .ok ()) else (o, .error .valueError)
      | .bool b => (setAttr o attr (.bool b), .ok ())
      | _ => (o, .error .typeError) := by
  cases v with
  | int i =>
    by_cases hi : i < 0
    · have : ¬ 0 ≤ i := by omega
      simp [assignOptionalPositiveInt, setPositiveInt, asInt, hi, this]
    · have : 0 ≤ i := by omega
      simp [assignOptionalPositiveInt, setPositiveInt, asInt, hi, this]
  | bool b => cases b <;> simp [assignOptionalPositiveInt, setPositiveInt, asInt]
  | _ => simp [assignOptionalPositiveInt, setPositiveInt, asInt]

example : (runAssigns (fun _ v => .ok v) (fun _ => .positive) (fun _ => .none)
    [("queue_length", .int 3), ("queue_length", .int (-1)), ("x", .str "a")]) "queue_length" =
    .int 3 := by decide

/-- A value an attribute for integers or texts of a form may hold. -/
def OfForm (form : String → Bool) : PyVal → Prop
  | .int _ | .bool _ => True
  | .str s => form s = true
  | _ => False

/-- C40: an attribute for integers or texts of a form (`alignment`, `display_format`) holds `None`, an integer or a
text of that form through any sequence of assignments to the object's attributes, accepted or rejected. -/
theorem C40_form_history (cast : String → PyVal → Except PyErr PyVal) (cls : String → Guard)
    (attr : String) (form : String → Bool) (hg : cls attr = .pattern form) (o : Attrs)
    (ho : o attr = .none ∨ OfForm form (o attr)) (steps : List (String × PyVal)) :
    runAssigns cast cls o steps attr = .none ∨ OfForm form (runAssigns cast cls o steps attr) := by
  induction steps generalizing o with
  | nil => exact ho
  | cons s rest ih =>
    obtain ⟨a, v⟩ := s
    simp only [runAssigns]
    apply ih
    by_cases ha : attr = a
    · subst ha
      rw [hg]
      cases v with
      | int i => exact .inr (by simp [guardedAssign, assignIntOrPattern, asInt, setAttr, OfForm])
      | bool b => exact .inr (by cases b <;> simp [guardedAssign, assignIntOrPattern, asInt, setAttr, OfForm])
      | str t =>
        by_cases ht : form t = true
        · exact .inr (by simp [guardedAssign, assignIntOrPattern, setAttr, OfForm, ht])
        · simpa [guardedAssign, assignIntOrPattern, ht] using ho
      | _ => simpa [guardedAssign, assignIntOrPattern, asInt] using ho
    · rw [guarded_other _ _ _ _ _ _ ha]; exact ho

/-- C40: the outcome of one such assignment.  `None` is ignored, integers and texts of the form are stored, other texts
raise ValueError and anything else TypeError, both without any change. -/
theorem C40_form_decision (cast : String → PyVal → Except PyErr PyVal) (form : String → Bool) (o : Attrs)
    (attr : String) (v : PyVal) :
    guardedAssign cast o attr v (.pattern form) =
      match v with
      | .none => (o, .ok ())
      | .int i => (setAttr o attr (.int i), .ok ())
      | .bool b => (setAttr o attr (.bool b), .ok ())
      | .str t => if form t = true then (setAttr o attr (.str t), .ok ()) else (o, .error .valueError)
      | _ => (o, .error .typeError) := by
  cases v with
  | bool b => cases b <;> simp [guardedAssign, assignIntOrPattern, asInt]
  | _ => simp [guardedAssign, assignIntOrPattern, asInt]

/-- A text of another form does not replace what is there. -/
example : (runAssigns (fun _ v => .ok v) (fun _ => .pattern fun t => t == "PTR") (fun _ => .none)
    [("alignment", .str "PTR"), ("alignment", .str "bits"), ("x", .int 2)]) "alignment" = .str "PTR" := by decide

/-! ### C39 -/

/-- The writes one call asks for, in order. -/
def requested : SettingsCall → List (String × PyVal)
  | .setValue n v => [(n, v)]
  | .update m => m

/-- What a correct typed map accepts: known name, string value. -/
def acceptable (p : String × PyVal) : Option (String × String) :=
  match p with
  | (n, .str t) => if n ∈ settingNames then some (n, t) else none
  | _ => none

/-- The writes of a call that take effect: those before the first unacceptable one. -/
def effective (c : SettingsCall) : List (String × String) :=
  ((requested c).map acceptable |>.takeWhile Option.isSome).filterMap id

/-- The last value written to `n`. -/
def lastWritten (n : String) (ws : List (String × String)) : Option String :=
  (ws.filter (fun p => p.1 = n)).getLast?.map (·.2)

/-- No call uses a method name of the settings class as the name of a setting. -/
def NoMethodNames (c : SettingsCall) : Prop := ∀ p ∈ requested c, p.1 ∉ methodNames

/-- Settings that agree with the list of effective writes so far. -/
def Agrees (s : Settings) (ws : List (String × String)) : Prop :=
  (∀ n, n ∈ settingNames → s n = some (lastWritten n ws)) ∧
  (∀ n, n ∉ settingNames → s n = none)

theorem lastWritten_snoc (n : String) (ws : List (String × String)) (k t : String) :
    lastWritten n (ws ++ [(k, t)]) = if k = n then some t else lastWritten n ws := by
  unfold lastWritten
  rw [List.filter_append]
  by_cases h : k = n
  · simp [h]
  · simp [h]

theorem agrees_init : Agrees Settings.init [] := by
  constructor
  · intro n hn; simp [Settings.init, hn, lastWritten]
  · intro n hn; simp [Settings.init, hn]

theorem methods_not_settings (m : String) (h : m ∈ methodNames) : m ∉ settingNames := by
  simp only [methodNames, List.mem_cons, List.not_mem_nil, or_false] at h
  rcases h with rfl | rfl | rfl | rfl <;> decide

theorem agrees_callable {s : Settings} {ws} (h : Agrees s ws) {m : String}
    (hm : m ∈ methodNames) : s.callable m = true := by
  simp [Settings.callable, h.2 m (methods_not_settings m hm)]

theorem setValue_agrees {s : Settings} {ws : List (String × String)} (h : Agrees s ws)
    (n : String) (v : PyVal) (hn : n ∉ methodNames) :
    match acceptable (n, v) with
    | some w => (s.setValue n v).2 = .ok () ∧ Agrees (s.setValue n v).1 (ws ++ [w])
    | none => (s.setValue n v).1 = s ∧
        (s.setValue n v).2 = .error (if n ∈ settingNames then .typeError else .keyError) := by
  have hc : s.callable "set_value" = true := agrees_callable h (by decide)
  by_cases hk : n ∈ settingNames
  · have hs := h.1 n hk
    have ha : s.hasAttr n = true := by simp [Settings.hasAttr, hs]
    cases v with
    | str t =>
      simp only [acceptable, hk, if_true]
      constructor
      · simp [Settings.setValue, hc, ha]
      · simp only [Settings.setValue, hc, ha]
        constructor
        · intro m hm
          rw [lastWritten_snoc]
          by_cases e : m = n
          · subst e; simp
          · have e' : ¬ n = m := fun x => e x.symm
            simp only [Bool.true_eq_false, if_false, if_true, e, e']
            exact h.1 m hm
        · intro m hm
          have e : m ≠ n := by rintro rfl; exact hm hk
          simp only [Bool.true_eq_false, if_false, if_true, e]
          exact h.2 m hm
    | _ => simp [acceptable, Settings.setValue, hc, ha, hk]
  · have hs := h.2 n hk
    have ha : s.hasAttr n = false := by simp [Settings.hasAttr, hs, hn]
    cases v <;> simp [acceptable, Settings.setValue, hc, ha, hk]

theorem updateLoop_agrees (m : List (String × PyVal)) {s : Settings}
    {ws : List (String × String)} (h : Agrees s ws) (hn : ∀ p ∈ m, p.1 ∉ methodNames) :
    Agrees (s.updateLoop m).1
      (ws ++ ((m.map acceptable).takeWhile Option.isSome).filterMap id) := by
  induction m generalizing s ws with
  | nil => simpa [Settings.updateLoop] using h
  | cons p rest ih =>
    obtain ⟨n, v⟩ := p
    have hv := setValue_agrees h n v (hn (n, v) (by simp))
    cases ha : acceptable (n, v) with
    | none =>
      rw [ha] at hv
      simp only at hv
      have heq : s.setValue n v = (s, .error (if n ∈ settingNames then .typeError else .keyError)) := by
        rw [← hv.2]
        exact Prod.ext hv.1 rfl
      simp [Settings.updateLoop, heq, ha, h]
    | some w =>
      rw [ha] at hv
      simp only at hv
      obtain ⟨h1, h2⟩ := hv
      have heq : s.setValue n v = ((s.setValue n v).1, .ok ()) := Prod.ext rfl h1
      generalize (s.setValue n v).1 = s1 at heq h2
      have := ih h2 (fun p hp => hn p (by simp [hp]))
      simpa [Settings.updateLoop, heq, ha, List.append_assoc] using this

theorem call_agrees {s : Settings} {ws : List (String × String)} (h : Agrees s ws)
    (c : SettingsCall) (hn : NoMethodNames c) : Agrees (s.call c).1 (ws ++ effective c) := by
  cases c with
  | setValue n v =>
    have hv := setValue_agrees h n v (hn (n, v) (by simp [requested]))
    cases ha : acceptable (n, v) with
    | none =>
      rw [ha] at hv
      simp only at hv
      simp [Settings.call, effective, requested, ha, hv.1, h]
    | some w =>
      rw [ha] at hv
      simpa [Settings.call, effective, requested, ha] using hv.2
  | update m =>
    have hc : s.callable "update" = true := agrees_callable h (by decide)
    have := updateLoop_agrees m h hn
    simpa [Settings.call, Settings.update, hc, effective, requested] using this

theorem run_agrees (cs : List SettingsCall) {s : Settings} {ws : List (String × String)}
    (h : Agrees s ws) (hn : ∀ c ∈ cs, NoMethodNames c) :
    Agrees (s.run cs) (ws ++ cs.flatMap effective) := by
  induction cs generalizing s ws with
  | nil => simpa [Settings.run] using h
  | cons c rest ih =>
    have h1 := call_agrees h c (hn c (by simp))
    have := ih h1 (fun c' hc' => hn c' (by simp [hc']))
    simpa [Settings.run, List.append_assoc] using this

/-- C39 (restricted to names that are not method names of the settings class): after any
sequence of calls each known setting reads as the last effective value, or is reported
unset, and every other name is unknown. -/
theorem C39_last_write_partial (cs : List SettingsCall) (hn : ∀ c ∈ cs, NoMethodNames c)
    (name : String) :
    (Settings.init.run cs).getValue name =
      if name ∈ settingNames then
        match lastWritten name (cs.flatMap effective) with
        | some t => .ok (some t)
        | none => .error .valueError
      else if name ∈ methodNames then .ok none else .error .attributeError := by
  have h := run_agrees cs agrees_init hn
  rw [List.nil_append] at h
  have hc := agrees_callable h (m := "get_value") (by decide)
  unfold Settings.getValue
  rw [hc]
  simp only [Bool.true_eq_false, if_false]
  by_cases hk : name ∈ settingNames
  · rw [h.1 name hk]
    simp only [hk, if_true]
    cases lastWritten name (cs.flatMap effective) <;> rfl
  · rw [h.2 name hk]
    simp [hk]

/-- C39: a rejected single write changes nothing; unknown names give KeyError, non-string
values TypeError. -/
theorem C39_reject_partial (cs : List SettingsCall) (hn : ∀ c ∈ cs, NoMethodNames c)
    (name : String) (v : PyVal) (hm : name ∉ methodNames)
    (hbad : name ∉ settingNames ∨ ∀ t, v ≠ .str t) :
    (Settings.init.run cs).setValue name v =
      (Settings.init.run cs, .error (if name ∈ settingNames then .typeError else .keyError)) := by
  have h := run_agrees cs agrees_init hn
  have hv := setValue_agrees h name v hm
  have ha : acceptable (name, v) = none := by
    rcases hbad with hb | hb
    · cases v <;> simp [acceptable, hb]
    · cases v with
      | str t => exact absurd rfl (hb t)
      | _ => rfl
  rw [ha] at hv
  exact Prod.ext hv.1 hv.2

/-- What a bad entry is answered with; `none` for an entry that is stored. -/
def refusal (p : String × PyVal) : Option PyErr :=
  if p.1 ∉ settingNames then some .keyError
  else match p.2 with
    | .str _ => none
    | _ => some .typeError

theorem refusal_acceptable (p : String × PyVal) : (refusal p = none) ↔ (acceptable p).isSome := by
  obtain ⟨n, v⟩ := p
  by_cases hk : n ∈ settingNames <;> cases v <;> simp [refusal, acceptable, hk]

theorem updateLoop_outcome (m : List (String × PyVal)) {s : Settings}
    {ws : List (String × String)} (h : Agrees s ws) (hn : ∀ p ∈ m, p.1 ∉ methodNames) :
    (s.updateLoop m).2 =
      match m.findSome? refusal with
      | none => .ok ()
      | some e => .error e := by
  induction m generalizing s ws with
  | nil => rfl
  | cons p rest ih =>
    obtain ⟨n, v⟩ := p
    have hv := setValue_agrees h n v (hn (n, v) (by simp))
    cases ha : acceptable (n, v) with
    | none =>
      rw [ha] at hv
      simp only at hv
      have heq : s.setValue n v = (s, .error (if n ∈ settingNames then .typeError else .keyError)) :=
        Prod.ext hv.1 hv.2
      have hr : refusal (n, v) = some (if n ∈ settingNames then .typeError else .keyError) := by
        by_cases hk : n ∈ settingNames
        · cases v <;> simp [acceptable, hk] at ha <;> simp [refusal, hk]
        · simp [refusal, hk]
      simp [Settings.updateLoop, heq, List.findSome?_cons, hr]
    | some w =>
      rw [ha] at hv
      simp only at hv
      obtain ⟨h1, h2⟩ := hv
      have heq : s.setValue n v = ((s.setValue n v).1, .ok ()) := Prod.ext rfl h1
      have hr : refusal (n, v) = none := (refusal_acceptable _).mpr (by simp [ha])
      generalize (s.setValue n v).1 = s1 at heq h2
      have := ih h2 (fun p hp => hn p (by simp [hp]))
      simpa [Settings.updateLoop, heq, List.findSome?_cons, hr] using this

/-- C39: an update succeeds exactly when every entry is a known name with a string value; otherwise
it raises the error of the first bad entry (KeyError for an unknown name, TypeError for a value
that is not a string). -/
theorem C39_update_outcome_partial (cs : List SettingsCall) (hn : ∀ c ∈ cs, NoMethodNames c)
    (m : List (String × PyVal)) (hm : ∀ p ∈ m, p.1 ∉ methodNames) :
    ((Settings.init.run cs).update m).2 =
      match m.findSome? refusal with
      | none => .ok ()
      | some e => .error e := by
  have h := run_agrees cs agrees_init hn
  have hc := agrees_callable h (m := "update") (by decide)
  simp only [Settings.update, hc, Bool.true_eq_false, if_false]
  exact updateLoop_outcome m h hm

example : (Settings.init.update [("init_event_prefix", .str "b"), ("nope", .str "c"),
    ("timing_event_prefix", .none)]).2 = .error .keyError := by decide

example : (Settings.init.run [.setValue "init_event_prefix" (.str "a"),
    .update [("init_event_prefix", .str "b"), ("nope", .str "c"), ("init_event_prefix", .str "d")]
    ]).getValue "init_event_prefix" = .ok (some "b") := by decide

/-- Finding for C39: unknown names are *not* always rejected.  `hasattr` is also true for
the class's methods, so a setting called "update" is accepted and hides the method: every
later `update` raises TypeError and stores nothing. -/
theorem C39_method_name_accepted :
    ∃ s : Settings, Settings.init.setValue "update" (.str "x") = (s, .ok ()) ∧
      "update" ∉ settingNames ∧
      ∀ m, s.update m = (s, .error .typeError) := by
  refine ⟨_, rfl, by decide, ?_⟩
  intro m
  simp [Settings.update, Settings.callable]

/-- The full statement of C39, refuted by the same witness: it would say that writes to
names that are not settings are always rejected. -/
theorem C39_unknown_rejected_false :
    ¬ ∀ (name t : String), name ∉ settingNames →
      (Settings.init.setValue name (.str t)).2 = .error .keyError := by
  intro h
  have := h "update" "x" (by decide)
  revert this
  decide

end Verif.Props.Ref
