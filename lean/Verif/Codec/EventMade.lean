import Verif.Codec.EventAbout
import Verif.Codec.ConnectAdd
/-
The event that is made is well-formed.
-/
set_option linter.unusedSimpArgs false
namespace Verif.Codec.Event
open Verif.Py Verif.Ref Verif.Codec Verif.Codec.Spec Verif.Codec.Find Verif.Codec.FindSpec Verif.Pkg.Spec
open Verif.Codec.Connect (portKind destOf refAttr change of_cls name_there member_wf field_attr elem_wf
  plain_get ref_append plain_ref element_plain ref_text_ok obj_wf name_ok plain_append slash_ne)
open Verif.Codec.ConnectSpec Verif.Codec.EventSpec Verif.Codec.TypeHeader
open Verif.Codec.Owner (shortName)
open Verif.Codec.Constant (fields_ok)
open Verif.Swc.EventSpec (First Required Provided Chosen Mode Wants Means)

variable {ps : List Pkg} {K : Known} {way : List String} {v : Val Cls}

/-- A reference of the class that can be written. -/
def GoodRef (c : String) (r : Val Cls) : Prop :=
  ∃ s d, r = .ref ⟨c, s, d⟩ ∧ refValOk ⟨c, s, d⟩ = true ∧ plainText s = true

theorem ref_plain {w : List String} (h : ∀ n ∈ w, plainText n = true) {n : String}
    (hn : plainText n = true) : plainText (absRef (w ++ [n])) = true :=
  plain_ref fun m hm => by
    rcases List.mem_append.1 hm with hm | hm
    · exact h m hm
    · rw [List.mem_singleton.1 hm]; exact hn

theorem ref_ne (w : List String) (n : String) : absRef (w ++ [n]) ≠ "" := by
  rw [ref_append]; exact slash_ne _ _

theorem part_good {w : List String} (h : ∀ n ∈ w, plainText n = true) {c d : String} {x r : Val Cls}
    (hx : Named x) (hr : PartRef c d w x r) (hd : refValOk ⟨c, "x", d⟩ = true) : GoodRef c r := by
  obtain ⟨n, h1, rfl⟩ := hr
  rw [hx.name] at h1
  cases h1
  exact ⟨_, _, rfl, by rw [ref_text_ok _ _ (ref_ne _ _)]; exact hd, ref_plain h hx.plain⟩

theorem req_good (h : IsApp ps way v) {n : List Char} {x r : Val Cls} (hx : RequiredPort v n x)
    (hr : PortRef "AbstractRequiredPortPrototypeRef" way x r) :
    GoodRef "AbstractRequiredPortPrototypeRef" r := by
  obtain ⟨m, d, h1, h2, rfl⟩ := hr
  have hn := port_named h (first_mem hx)
  rw [hn.name] at h1
  cases h1
  refine ⟨_, _, rfl, ?_, ref_plain (element_plain h.at' h.wf) hn.plain⟩
  rw [ref_text_ok _ _ (ref_ne _ _)]
  obtain ⟨-, -, -, ⟨hc, -⟩, -⟩ := hx
  cases h2 with
  | provide => simp [classOf] at hc
  | require => decide +kernel
  | both => decide +kernel

theorem prov_good (h : IsApp ps way v) {n : List Char} {x r : Val Cls} (hx : ProvidedPort v n x)
    (hr : PortRef "AbstractProvidedPortPrototypeRef" way x r) :
    GoodRef "AbstractProvidedPortPrototypeRef" r := by
  obtain ⟨m, d, h1, h2, rfl⟩ := hr
  have hn := port_named h (first_mem hx)
  rw [hn.name] at h1
  cases h1
  refine ⟨_, _, rfl, ?_, ref_plain (element_plain h.at' h.wf) hn.plain⟩
  rw [ref_text_ok _ _ (ref_ne _ _)]
  obtain ⟨-, -, -, ⟨hc, -⟩, -⟩ := hx
  cases h2 with
  | require => simp [classOf] at hc
  | provide => decide +kernel
  | both => decide +kernel

theorem group_good (hw : WellFormedPkgs ps) {x t g : Val Cls} {a b : String} {wayI : List String}
    (h : Leads ps x a .ModeSwitchInterface wayI t) (hg : field t "mode_group" = some g)
    {fg : List (String × Val Cls)} (hf : GroupAttr K b wayI g fg) :
    fg = [] ∨ ∃ r, fg = [(b, r)] ∧ GoodRef "ModeDeclarationGroupPrototypeRef" r := by
  rcases hf with ⟨-, r, hr, rfl⟩ | ⟨-, rfl⟩
  · refine .inr ⟨r, rfl, part_good ?_ (group_named hw h hg) hr (by decide +kernel)⟩
    obtain ⟨-, -, -, h3, -⟩ := h
    exact element_plain h3 hw
  · exact .inl rfl

/-! ### Objects from their attributes -/

/-- The attribute is fine in an object of the class. -/
def FieldOk (c : Cls) (p : String × Val Cls) : Prop :=
  (∃ f, fieldOf (tables.schema c) p.1 = some f ∧ hasField tables f p.2 = true) ∧
    plainVal xmlAttrs p.2 = true ∧ p.1 ∉ xmlAttrs

theorem fields_of {c : Cls} {fs : List (String × Val Cls)} (h : ∀ p ∈ fs, FieldOk c p) :
    hasFields tables (tables.schema c) fs = true ∧ plainFields xmlAttrs fs = true := by
  induction fs with
  | nil => exact ⟨rfl, rfl⟩
  | cons p fs ih =>
    obtain ⟨k, x⟩ := p
    obtain ⟨⟨f, h1, h2⟩, h3, h4⟩ := h (k, x) (by simp)
    obtain ⟨h5, h6⟩ := ih fun q hq => h q (by simp [hq])
    exact ⟨fields_ok h1 h2 h5, by simp only [plainFields, h3, h6, h4]; simp⟩

theorem wf_of {c : Cls} {fs : List (String × Val Cls)}
    (ho : orderOk (tables.schema c) (fs.map (·.1)) = true) (h : ∀ p ∈ fs, FieldOk c p) :
    WellFormed c (.obj c fs) := by
  obtain ⟨h1, h2⟩ := fields_of h
  exact obj_wf ho h1 h2

theorem ref_field_ok {c : Cls} {a k : String} {r : Val Cls}
    (hf : fieldOf (tables.schema c) a = some (Schema.opt a [.ref k])) (ha : a ∉ xmlAttrs)
    (hr : GoodRef k r) : FieldOk c (a, r) := by
  obtain ⟨s, d, rfl, h1, h2⟩ := hr
  exact ⟨⟨_, hf, by simp [hasField, Schema.opt, hasS, h1]⟩, by simpa [plainVal] using h2, ha⟩

theorem obj_field_ok {c k : Cls} {a : String} {o : Val Cls}
    (hf : fieldOf (tables.schema c) a = some (Schema.opt a [.cls k])) (ha : a ∉ xmlAttrs)
    (ho : WellFormed k o) : FieldOk c (a, o) :=
  ⟨⟨_, hf, by simp [hasField, Schema.opt, ho.1]⟩, ho.2, ha⟩

theorem name_field_ok {c : Cls} (hc : hasName c = true) {n : String} (hn : n ≠ "")
    (hp : plainText n = true) : FieldOk c ("name", .str n) :=
  ⟨⟨_, hasName_iff hc, name_ok hn⟩, by simpa [plainVal] using hp,
    (by decide +kernel : "name" ∉ xmlAttrs)⟩

theorem num_field_ok {a : String} (ha : a = "period" ∨ a = "offset") {f : Verif.Num.PyFloat}
    (h1 : floatOk f = true) (h2 : f ≠ .fin true 0 0) : FieldOk .TimingEvent (a, .num (.float f)) := by
  rcases ha with rfl | rfl
  · exact ⟨⟨Schema.opt "period" [.castFloat], rfl, by simp [hasField, Schema.opt, hasS, h1, h2]⟩, rfl,
      (by decide +kernel : "period" ∉ xmlAttrs)⟩
  · exact ⟨⟨Schema.opt "offset" [.castFloat], rfl, by simp [hasField, Schema.opt, hasS, h1, h2]⟩, rfl,
      (by decide +kernel : "offset" ∉ xmlAttrs)⟩

theorem data_wf {rp re : Val Cls} (h1 : GoodRef "AbstractRequiredPortPrototypeRef" rp)
    (h2 : GoodRef "VariableDataPrototypeRef" re) :
    WellFormed .RVariableInAtomicSwcInstanceRef (.obj .RVariableInAtomicSwcInstanceRef
      [("context_port", rp), ("target_data_element", re)]) := by
  refine wf_of (by rfl) ?_
  simp only [List.mem_cons, List.not_mem_nil, or_false]
  rintro p (rfl | rfl)
  · exact ref_field_ok rfl (by decide +kernel) h1
  · exact ref_field_ok rfl (by decide +kernel) h2

theorem operation_wf {rp re : Val Cls} (h1 : GoodRef "AbstractProvidedPortPrototypeRef" rp)
    (h2 : GoodRef "ClientServerOperationRef" re) :
    WellFormed .POperationInAtomicSwcInstanceRef (.obj .POperationInAtomicSwcInstanceRef
      [("context_port", rp), ("target_provided_operation", re)]) := by
  refine wf_of (by rfl) ?_
  simp only [List.mem_cons, List.not_mem_nil, or_false]
  rintro p (rfl | rfl)
  · exact ref_field_ok rfl (by decide +kernel) h1
  · exact ref_field_ok rfl (by decide +kernel) h2

theorem group_wf {rp : Val Cls} {fg : List (String × Val Cls)}
    (h1 : GoodRef "AbstractProvidedPortPrototypeRef" rp)
    (h2 : fg = [] ∨ ∃ r, fg = [("target_mode_group", r)] ∧ GoodRef "ModeDeclarationGroupPrototypeRef" r) :
    WellFormed .PModeGroupInAtomicSwcInstanceRef (.obj .PModeGroupInAtomicSwcInstanceRef
      ([("context_port", rp)] ++ fg)) := by
  rcases h2 with rfl | ⟨r, rfl, h2⟩
  · refine wf_of (by rfl) ?_
    simp only [List.append_nil, List.mem_cons, List.not_mem_nil, or_false]
    rintro p rfl
    exact ref_field_ok rfl (by decide +kernel) h1
  · refine wf_of (by rfl) ?_
    simp only [List.cons_append, List.nil_append, List.mem_cons, List.not_mem_nil, or_false]
    rintro p (rfl | rfl)
    · exact ref_field_ok rfl (by decide +kernel) h1
    · exact ref_field_ok rfl (by decide +kernel) h2

theorem mode_wf (h : IsApp ps way v) {text : List Char} {m : Val Cls} (hm : ModeIn ps K way v text m) :
    WellFormed .RModeInAtomicSwcInstanceRef m := by
  cases hm with
  | @mk pn mn x i g t y rp rm wayI wayT fg _ _ _ hr hl hg hl' hy h8 h9 h10 =>
    have g1 := req_good h hr h8
    have g2 := group_good h.wf hl hg h9
    have g3 : GoodRef "ModeDeclarationRef" rm := by
      refine part_good ?_ (lead_named h.wf hl' (b := "mode_declarations") (by simp [lists]) _ (first_mem hy))
        h10 (by decide +kernel)
      obtain ⟨-, -, -, h3, -⟩ := hl'
      exact element_plain h3 h.wf
    rcases g2 with rfl | ⟨r, rfl, g2⟩
    · refine wf_of (by rfl) ?_
      simp only [List.append_nil, List.cons_append, List.nil_append, List.mem_cons, List.not_mem_nil, or_false]
      rintro p (rfl | rfl)
      · exact ref_field_ok rfl (by decide +kernel) g1
      · exact ref_field_ok rfl (by decide +kernel) g3
    · refine wf_of (by rfl) ?_
      simp only [List.cons_append, List.nil_append, List.mem_cons, List.not_mem_nil, or_false]
      rintro p (rfl | rfl | rfl)
      · exact ref_field_ok rfl (by decide +kernel) g1
      · exact ref_field_ok rfl (by decide +kernel) g2
      · exact ref_field_ok rfl (by decide +kernel) g3

theorem modes_field_ok {l : List (Val Cls)} (h0 : l ≠ []) (h2 : l.length ≤ 2)
    (h : ∀ m ∈ l, WellFormed .RModeInAtomicSwcInstanceRef m) :
    FieldOk .SwcModeSwitchEvent ("mode", .list l) := by
  refine ⟨⟨⟨"mode", "mode", .many (some 2), [.cls .RModeInAtomicSwcInstanceRef], false⟩, rfl, ?_⟩, ?_,
    (by decide +kernel : "mode" ∉ xmlAttrs)⟩
  · unfold hasField
    simp only [Bool.and_eq_true]
    refine ⟨by cases l <;> simp_all [maxOk], (hasList_iff _ _ _).2 fun x hx => ⟨_, by simp, (h x hx).1⟩⟩
  · simp only [plainVal]
    exact Connect.plain_list fun x hx => (h x hx).2

theorem act_field_ok {a : String} (h : a ∈ ["ON_ENTRY", "ON_EXIT", "ON_TRANSITION"]) :
    FieldOk .SwcModeSwitchEvent ("activation", .enum ⟨"ModeActivationKind", a⟩) := by
  refine ⟨⟨_, rfl, ?_⟩, rfl, (by decide +kernel : "activation" ∉ xmlAttrs)⟩
  simp only [List.mem_cons, List.not_mem_nil, or_false] at h
  rcases h with rfl | rfl | rfl <;> decide +kernel

/-- The names of the attributes of the events that are made. -/
def orders : List (Cls × List String) :=
  [(.BackgroundEvent, []), (.InitEvent, []), (.TimingEvent, []), (.TimingEvent, ["period"]),
   (.TimingEvent, ["offset"]), (.TimingEvent, ["period", "offset"]), (.DataReceiveErrorEvent, ["data"]),
   (.DataReceivedEvent, ["data"]), (.OperationInvokedEvent, ["operation"]),
   (.SwcModeManagerErrorEvent, ["mode_group"]), (.SwcModeSwitchEvent, ["mode"]),
   (.SwcModeSwitchEvent, ["activation", "mode"])]

theorem orders_ok : ∀ p ∈ orders, orderOk (tables.schema p.1) ("name" :: p.2) = true ∧
    orderOk (tables.schema p.1) ("name" :: "start_on_event" :: p.2) = true ∧ hasName p.1 = true := by
  decide +kernel

theorem start_field : ∀ p ∈ orders, fieldOf (tables.schema p.1) "start_on_event" =
    some (Schema.opt "start_on_event" [.ref "RunnableEntityRef"]) := by
  simp only [orders, List.mem_cons, List.not_mem_nil, or_false]
  rintro p (rfl | rfl | rfl | rfl | rfl | rfl | rfl | rfl | rfl | rfl | rfl | rfl) <;> rfl

theorem num_ok {req : Swc.Request} (hv : ValuesOk req) {period offset : Option Verif.Num.PyNum}
    (hr : req = .timing period offset) {a : String} (ha : a = "period" ∨ a = "offset")
    {o : Option Verif.Num.PyNum} (ho : o = Swc.asFloat period ∨ o = Swc.asFloat offset)
    {f : List (String × Val Cls)} (h : NumAttr a o f) :
    (f.map (·.1) = [] ∨ f.map (·.1) = [a]) ∧ ∀ p ∈ f, FieldOk .TimingEvent p := by
  rcases h with ⟨-, rfl⟩ | ⟨x, rfl, rfl⟩
  · exact ⟨.inl rfl, by simp⟩
  · subst hr
    refine ⟨.inr rfl, ?_⟩
    obtain ⟨y, rfl, h1, h2⟩ := hv x (by rcases ho with ho | ho <;> simp [← ho])
    intro p hp
    rw [List.mem_singleton.1 hp]
    exact num_field_ok ha h1 h2

theorem about_fields (h : IsApp ps way v) {req : Swc.Request} {c : Cls} {key : String}
    {objs : List (Val Cls)} {fs : List (String × Val Cls)} (ha : About ps K way v req c key objs fs)
    (hv : ValuesOk req) : (c, fs.map (·.1)) ∈ orders ∧ ∀ p ∈ fs, FieldOk c p := by
  have pl : ∀ {x a k w t}, Leads ps x a k w t → ∀ n ∈ w, plainText n = true := by
    rintro x a k w t ⟨-, -, -, h3, -⟩
    exact element_plain h3 h.wf
  cases ha with
  | background => exact ⟨by simp [orders], by simp⟩
  | init => exact ⟨by simp [orders], by simp⟩
  | @timing period offset f g h1 h2 =>
    obtain ⟨n1, o1⟩ := num_ok hv rfl (.inl rfl) (.inl rfl) h1
    obtain ⟨n2, o2⟩ := num_ok hv rfl (.inr rfl) (.inr rfl) h2
    refine ⟨?_, fun p hp => ?_⟩
    · rw [List.map_append]
      rcases n1 with n1 | n1 <;> rcases n2 with n2 | n2 <;> rw [n1, n2] <;> simp [orders]
    · rcases List.mem_append.1 hp with hp | hp
      · exact o1 p hp
      · exact o2 p hp
  | dataReceiveError hm hr hl hy h1 h2 =>
    refine ⟨by simp [orders], fun p hp => ?_⟩
    rw [List.mem_singleton.1 hp]
    exact obj_field_ok rfl (by decide +kernel) (data_wf (req_good h hr h1) (part_good (pl hl)
      (lead_named h.wf hl (b := "data_elements") (by simp [lists]) _ (picked_mem hy)) h2 (by decide +kernel)))
  | dataReceived hm hr hl hy h1 h2 =>
    refine ⟨by simp [orders], fun p hp => ?_⟩
    rw [List.mem_singleton.1 hp]
    exact obj_field_ok rfl (by decide +kernel) (data_wf (req_good h hr h1) (part_good (pl hl)
      (lead_named h.wf hl (b := "data_elements") (by simp [lists]) _ (picked_mem hy)) h2 (by decide +kernel)))
  | operationInvoked hm hr hl hy h1 h2 =>
    refine ⟨by simp [orders], fun p hp => ?_⟩
    rw [List.mem_singleton.1 hp]
    exact obj_field_ok rfl (by decide +kernel) (operation_wf (prov_good h hr h1) (part_good (pl hl)
      (lead_named h.wf hl (b := "operations") (by simp [lists]) _ (picked_mem hy)) h2 (by decide +kernel)))
  | modeManagerError hr hl hg h1 h2 =>
    refine ⟨by simp [orders], fun p hp => ?_⟩
    rw [List.mem_singleton.1 hp]
    exact obj_field_ok rfl (by decide +kernel) (group_wf (prov_good h hr h1) (group_good h.wf hl hg h2))
  | mode hm ha =>
    have hmf := modes_field_ok (l := [_]) (by simp) (by simp) (fun x hx => by
      rw [List.mem_singleton.1 hx]; exact mode_wf h hm)
    rcases ha with ⟨-, rfl⟩ | ⟨x, hx, rfl⟩
    · refine ⟨by simp [orders], fun p hp => ?_⟩
      simp only [List.nil_append, List.mem_singleton] at hp
      rw [hp]; exact hmf
    · refine ⟨by simp [orders], fun p hp => ?_⟩
      simp only [List.cons_append, List.nil_append, List.mem_cons, List.not_mem_nil, or_false] at hp
      rcases hp with rfl | rfl
      · exact act_field_ok (hv x hx)
      · exact hmf
  | @transition text text' a m m' f hm hm' ha =>
    have hmf := modes_field_ok (l := [m, m']) (by simp) (by simp) (fun x hx => by
      simp only [List.mem_cons, List.not_mem_nil, or_false] at hx
      rcases hx with rfl | rfl
      · exact mode_wf h hm
      · exact mode_wf h hm')
    rcases ha with ⟨-, rfl⟩ | ⟨x, hx, rfl⟩
    · refine ⟨by simp [orders], fun p hp => ?_⟩
      simp only [List.nil_append, List.mem_singleton] at hp
      rw [hp]; exact hmf
    · refine ⟨by simp [orders], fun p hp => ?_⟩
      simp only [List.cons_append, List.nil_append, List.mem_cons, List.not_mem_nil, or_false] at hp
      rcases hp with rfl | rfl
      · exact act_field_ok (hv x hx)
      · exact hmf

/-- The event is well-formed. -/
theorem event_wf (h : IsApp ps way v) {req : Swc.Request} {c : Cls} {key : String}
    {objs : List (Val Cls)} {fs : List (String × Val Cls)} (ha : About ps K way v req c key objs fs)
    (hv : ValuesOk req) {n : String} (hn : n ≠ "") (hp : plainText n = true) {s : Option RefObj}
    (hs : ∀ r, s = some r → GoodRef "RunnableEntityRef" (.ref r)) :
    WellFormed c (.obj c ([("name", .str n)] ++ refAttr "start_on_event" s ++ fs)) := by
  obtain ⟨h1, h2⟩ := about_fields h ha hv
  obtain ⟨o1, o2, o3⟩ := orders_ok _ h1
  have hname := name_field_ok o3 hn hp
  cases s with
  | none =>
    refine wf_of (by simpa [refAttr] using o1) fun p hp => ?_
    simp only [refAttr, List.append_nil, List.cons_append, List.nil_append, List.mem_cons] at hp
    rcases hp with rfl | hp
    · exact hname
    · exact h2 p hp
  | some r =>
    refine wf_of (by simpa [refAttr] using o2) fun p hp => ?_
    simp only [refAttr, List.cons_append, List.nil_append, List.mem_cons] at hp
    rcases hp with rfl | rfl | hp
    · exact hname
    · exact ref_field_ok (start_field _ h1) (by decide +kernel) (hs r rfl)
    · exact h2 p hp

/-- The classes of the events that are made. -/
theorem about_cls {req : Swc.Request} {c : Cls} {key : String} {objs : List (Val Cls)}
    {fs : List (String × Val Cls)} (ha : About ps K way v req c key objs fs) :
    c ∈ [Cls.BackgroundEvent, .DataReceiveErrorEvent, .DataReceivedEvent, .InitEvent,
      .OperationInvokedEvent, .SwcModeManagerErrorEvent, .SwcModeSwitchEvent, .TimingEvent] := by
  cases ha <;> simp

end Verif.Codec.Event
