import Verif.Codec.CreateProof
/-
C62: methods that create parts.
-/
namespace Verif.Props.CodecCreate
open Verif.Py Verif.Names Verif.Codec Verif.Codec.Append Verif.Codec.AppendSpec Verif.Codec.Create
  Verif.Codec.CreateSpec

/-- C62: a method that creates a part calls the part's constructor with the arguments of the same names,
whether they are given by position or by name, and the owner is then the one that its constructor makes
of the same arguments and the part; if the part's constructor raises an exception, so does the method. -/
theorem C62_created (D : Digits) (c : Cls) (q : Maker) (hq : q ∈ makers c) (data : Data Cls) (o : Val Cls)
    (ho : construct D c data = some (.ok o)) (pos : List (Option (Val Cls))) (kw : Data Cls)
    (hc : q.Call pos kw) :
    q.Outcome D c data (q.named pos kw) (create D o q.method pos kw) :=
  created D hq ho hc

/-- C62: too many arguments, an argument given twice (or one that the method supplies itself) and no name
are refused. -/
theorem C62_refused (D : Digits) (c : Cls) (q : Maker) (hq : q ∈ makers c) (fs : List (String × Val Cls))
    (pos : List (Option (Val Cls))) (kw : Data Cls) (hk : (kw.map Prod.fst).Nodup)
    (hc : ¬ q.Call pos kw) : create D (.obj c fs) q.method pos kw = some (.error .typeError) :=
  not_created D hq fs hk hc

/-- C62: a component prototype gets the name given, or else the name of its type, and the reference to its
type. -/
theorem C62_prototype (D : Digits) (data : Data Cls) (o : Val Cls)
    (ho : construct D .CompositionSwComponentType data = some (.ok o))
    (type : String × Option Verif.Ref.RefObj) (name : Option String) (kw : Data Cls)
    (hk : (kw.map Prod.fst).Nodup) (hn : "name" ∉ kw.map Prod.fst) (ht : "type_ref" ∉ kw.map Prod.fst) :
    prototypes.Outcome D .CompositionSwComponentType data
      ([("name", some (.str (name.getD type.1))), ("type_ref", type.2.map .ref)] ++ kw)
      (createPrototype D o type name kw) := by
  have hc : prototypes.Call [some (.str (name.getD type.1)), type.2.map .ref] kw := by
    refine ⟨by simp [prototypes], ?_, ?_⟩
    · simp [Maker.named, prototypes, hk, hn, ht]
    · simp [Maker.named, prototypes]
  have := created D (c := .CompositionSwComponentType) (q := prototypes) (.head _) ho hc
  have he : createPrototype D o type name kw = create D o "create_component_prototype"
      [some (.str (name.getD type.1)), type.2.map .ref] kw := by cases name <;> rfl
  rw [he]
  simpa [Maker.named, prototypes] using this

/-- C62: an internal behavior gets the name given, or else the name of the component followed by
"_InternalBehavior". -/
theorem C62_behavior (D : Digits) (data : Data Cls) (o : Val Cls) (s : String)
    (ho : construct D .ApplicationSoftwareComponentType data = some (.ok o))
    (hs : lastOf data "name" = some (some (.str s))) (name : Option String) (kw : Data Cls)
    (hk : (kw.map Prod.fst).Nodup) (hn : "name" ∉ kw.map Prod.fst) :
    behaviors.Outcome D .ApplicationSoftwareComponentType data
      ([("name", some (.str (name.getD (s ++ "_InternalBehavior"))))] ++ kw)
      (createBehavior D o name kw) := by
  have hc : behaviors.Call [some (.str (name.getD (s ++ "_InternalBehavior")))] kw := by
    refine ⟨by simp [behaviors], ?_, ?_⟩
    · simp [Maker.named, behaviors, hk, hn]
    · simp [Maker.named, behaviors]
  have := created D (c := .ApplicationSoftwareComponentType) (q := behaviors) (.head _) ho hc
  have he : createBehavior D o name kw = create D o "create_internal_behavior"
      [some (.str (name.getD (s ++ "_InternalBehavior")))] kw := by
    cases name with
    | some n => rfl
    | none =>
      have hv : Valid .ApplicationSoftwareComponentType data := valid_of_ok (r := some o) ho
      rw [construct_valid D hv] at ho
      simp only [renTop, reduceCtorEq, if_false, Option.map_some, Option.some.injEq, Except.ok.injEq] at ho
      subst ho
      have hf : ∃ f ∈ Schema.ctor .ApplicationSoftwareComponentType, f.param = "name" ∧ f.attr = "name" :=
        ⟨_, .head _, rfl, rfl⟩
      obtain ⟨f, hf, hp, ha⟩ := hf
      have hg := dictGet_canon (attrs_nodup .ApplicationSoftwareComponentType) (arg data) hf
      rw [ha] at hg
      simp only [arg, hp, hs, Option.getD_some, normal] at hg
      simp only [createBehavior, hg, Option.getD_none]
  rw [he]
  simpa [Maker.named, behaviors] using this

/-- C62: a possible error is added as a reference to the error at the path given. -/
theorem C62_error_ref (D : Digits) (data : Data Cls) (o : Val Cls)
    (ho : construct D .ClientServerOperation data = some (.ok o)) (value : String) :
    let r : Val Cls := .ref ⟨"ApplicationErrorRef", value, "APPLICATION_ERROR"⟩
    ∃ o', construct D .ClientServerOperation
        (data ++ [("possible_error_refs", some (.list (given data "possible_error_refs" ++ [r])))]) =
          some (.ok o') ∧
      createErrorRef D o value = some (.ok (o', r)) := by
  intro r
  obtain ⟨o', h1, h2⟩ := add_one D (m := "append_possible_error_ref") (x := r) (by decide) ho
    (by with_unfolding_all rfl)
  refine ⟨o', h1, ?_⟩
  have hr : Verif.Ref.construct "ApplicationErrorRef" value .omitted =
      .ok ⟨"ApplicationErrorRef", value, "APPLICATION_ERROR"⟩ := by with_unfolding_all rfl
  simp only [createErrorRef, hr]
  rw [h2]
  rfl

/-- C62: an invalidation policy is added if the data element is given by its path or by a reference to a
data element, and how to handle it by a member of the enumeration; anything else is a TypeError. -/
theorem C62_policy (D : Digits) (data : Data Cls) (o : Val Cls)
    (ho : construct D .SenderReceiverInterface data = some (.ok o)) (ref handle : Option (Val Cls)) :
    (∀ r h, dataElement ref = some r → handling handle = some h →
      let x : Val Cls := .obj .InvalidationPolicy
        [("data_element_ref", .ref r), ("handle_invalid", .enum h)]
      ∃ o', construct D .SenderReceiverInterface
          (data ++ [("invalidation_policies", some (.list (given data "invalidation_policies" ++ [x])))]) =
            some (.ok o') ∧
        createPolicy D o ref handle = some (.ok (o', x))) ∧
    (dataElement ref = none ∨ handling handle = none →
      createPolicy D o ref handle = some (.error .typeError)) := by
  have hc : ∀ r h, r.cls = "VariableDataPrototypeRef" → h.cls = "HandleInvalid" →
      construct D .InvalidationPolicy
        [("data_element_ref", some (.ref r)), ("handle_invalid", some (.enum h))] =
      some (.ok (.obj .InvalidationPolicy [("data_element_ref", .ref r), ("handle_invalid", .enum h)])) := by
    rintro ⟨rc, rv, rd⟩ ⟨hc, hm⟩ rfl rfl
    with_unfolding_all rfl
  have hs : ∀ s, Verif.Ref.construct "VariableDataPrototypeRef" s .omitted =
      .ok ⟨"VariableDataPrototypeRef", s, "VARIABLE_DATA_PROTOTYPE"⟩ := fun s => by with_unfolding_all rfl
  have hR : (∀ r, dataElement ref = some r → policyRef ref = .ok r ∧ r.cls = "VariableDataPrototypeRef") ∧
      (dataElement ref = none → policyRef ref = .error .typeError) := by
    rcases ref with _ | v
    · exact ⟨nofun, fun _ => rfl⟩
    · cases v with
      | str s => exact ⟨fun r hr => by cases hr; exact ⟨hs s, rfl⟩, nofun⟩
      | ref r =>
        simp only [dataElement, policyRef]
        by_cases hr : r.cls = "VariableDataPrototypeRef"
        · simp only [if_pos hr]
          exact ⟨fun r' hr' => by cases hr'; exact ⟨rfl, hr⟩, nofun⟩
        · simp only [if_neg hr]
          exact ⟨nofun, fun _ => trivial⟩
      | _ => exact ⟨nofun, fun _ => rfl⟩
  have hH : (∀ h, handling handle = some h → policyHandle handle = .ok h ∧ h.cls = "HandleInvalid") ∧
      (handling handle = none → policyHandle handle = .error .typeError) := by
    rcases handle with _ | v
    · exact ⟨nofun, fun _ => rfl⟩
    · cases v with
      | enum m =>
        simp only [handling, policyHandle]
        by_cases hr : m.cls = "HandleInvalid"
        · simp only [if_pos hr]
          exact ⟨fun r' hr' => by cases hr'; exact ⟨rfl, hr⟩, nofun⟩
        · simp only [if_neg hr]
          exact ⟨nofun, fun _ => trivial⟩
      | _ => exact ⟨nofun, fun _ => rfl⟩
  constructor
  · intro r h hr hh x
    obtain ⟨o', h1, h2⟩ := add_one D (m := "append_invalidation_policy") (x := x) (by decide) ho
      (by with_unfolding_all rfl)
    refine ⟨o', h1, ?_⟩
    obtain ⟨hr1, hr2⟩ := hR.1 r hr
    obtain ⟨hh1, hh2⟩ := hH.1 h hh
    have hadd : (add D o "append_invalidation_policy" x).map (fun q => q.map fun o' => (o', x)) =
        some (.ok (o', x)) := by rw [h2]; rfl
    simp only [createPolicy, hr1, hh1, hc r h hr2 hh2]
    exact hadd
  · rintro (hn | hn)
    · simp only [createPolicy, hR.2 hn]
    · cases hd : dataElement ref with
      | none => simp only [createPolicy, hR.2 hd]
      | some r => simp only [createPolicy, (hR.1 r hd).1, hH.2 hn]

/-- An operation with one argument. -/
def operation : Data Cls := [("name", some (.str "Get")), ("arguments", some (.list
  [.obj .ArgumentDataPrototype [("name", .str "key")]]))]

def outArg : Maker := ⟨"create_out_argument", ["name", "server_arg_impl_policy"], .ArgumentDataPrototype,
  dir "OUT", "arguments", true⟩

/-- The hypotheses of `C62_created`: an argument by position and one by name. -/
example : outArg ∈ makers .ClientServerOperation ∧
    outArg.Call [some (.str "value")] [("category", some (.str "VALUE"))] ∧
    construct asciiDigits .ClientServerOperation operation = some (.ok (.obj .ClientServerOperation
      [("name", .str "Get"), ("arguments", .list [.obj .ArgumentDataPrototype [("name", .str "key")]])])) :=
  ⟨.tail _ (.tail _ (.tail _ (.head _))), ⟨by decide, by decide, by decide⟩, by with_unfolding_all rfl⟩

/-- The operation afterwards. -/
example : (create asciiDigits (.obj .ClientServerOperation
      [("name", .str "Get"), ("arguments", .list [.obj .ArgumentDataPrototype [("name", .str "key")]])])
      "create_out_argument" [some (.str "value")] [("category", some (.str "VALUE"))]) =
    some (.ok (.obj .ClientServerOperation [("name", .str "Get"), ("arguments", .list
      [.obj .ArgumentDataPrototype [("name", .str "key")],
       .obj .ArgumentDataPrototype [("name", .str "value"), ("category", .str "VALUE"),
        ("direction", .enum ⟨"ArgumentDirection", "OUT"⟩)]])],
      .obj .ArgumentDataPrototype [("name", .str "value"), ("category", .str "VALUE"),
        ("direction", .enum ⟨"ArgumentDirection", "OUT"⟩)])) := by
  with_unfolding_all rfl

/-- The direction cannot be given again, nor the name, and there is no third argument. -/
example : ¬ outArg.Call [some (.str "value")] [("direction", none)] ∧
    ¬ outArg.Call [some (.str "value")] [("name", some (.str "x"))] ∧
    ¬ outArg.Call [some (.str "value"), none, none] [] ∧ ¬ outArg.Call [] [] :=
  ⟨fun h => absurd h.distinct (by decide), fun h => absurd h.distinct (by decide),
    fun h => absurd h.fewEnough (by decide), fun h => absurd h.named (by decide)⟩

/-- The constructor refuses a value that is not a number. -/
example : create asciiDigits (.obj .ModeDeclarationGroup [("name", .str "Modes")])
    "create_mode_declaration" [some (.str "OFF"), some (.str "0")] [] = some (.error .typeError) := by
  with_unfolding_all rfl

/-- The second mode group replaces the first. -/
example : create asciiDigits (.obj .ModeSwitchInterface [("name", .str "If"),
      ("mode_group", .obj .ModeDeclarationGroupPrototype [("name", .str "old")])])
      "create_mode_group" [some (.str "new")] [] =
    some (.ok (.obj .ModeSwitchInterface [("name", .str "If"),
      ("mode_group", .obj .ModeDeclarationGroupPrototype [("name", .str "new")])],
      .obj .ModeDeclarationGroupPrototype [("name", .str "new")])) := by
  with_unfolding_all rfl

/-- The default names. -/
example : createBehavior asciiDigits (.obj .ApplicationSoftwareComponentType [("name", .str "App")]) none [] =
    some (.ok (.obj .ApplicationSoftwareComponentType [("name", .str "App"),
      ("internal_behavior", .obj .SwcInternalBehavior [("name", .str "App_InternalBehavior")])],
      .obj .SwcInternalBehavior [("name", .str "App_InternalBehavior")])) := by
  with_unfolding_all rfl

example : lastOf ([("name", some (.str "App"))] : Data Cls) "name" = some (some (.str "App")) := rfl

end Verif.Props.CodecCreate
