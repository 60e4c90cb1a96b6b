import Verif.Codec.EventProof
/-
What the event is about: on objects, and as the model of events has it.
-/
set_option linter.unusedSimpArgs false
namespace Verif.Codec.Event
open Verif.Py Verif.Ref Verif.Codec Verif.Codec.Spec Verif.Codec.Find Verif.Codec.FindSpec Verif.Pkg.Spec
open Verif.Codec.Connect (portKind destOf refAttr change of_cls name_there member_wf field_attr elem_wf
  plain_get ref_append)
open Verif.Codec.ConnectSpec Verif.Codec.EventSpec Verif.Codec.TypeHeader
open Verif.Codec.Owner (shortName)
open Verif.Swc.EventSpec (First Required Provided Chosen Mode Wants Means)

variable {ps : List Pkg} {K : Known} {way : List String} {v : Val Cls}

theorem portOf_some {x : Val Cls} {p : Swc.EvPort} (h : portOf ps K way x = some p) :
    portKind x = some p.kind ∧ p.name = shortName x ∧ p.ref = absRef (way ++ [shortName x]) ∧
    p.iface = ifaceAt ps K (refOf (attr x "port_interface_ref")) := by
  unfold portOf at h
  cases hp : portKind x with
  | none => rw [hp] at h; cases h
  | some k => rw [hp] at h; cases h; exact ⟨rfl, rfl, rfl, rfl⟩

theorem req_ref {n : List Char} {p : Swc.EvPort} {x : Val Cls} (h : Required (compOf ps K way v) n p)
    (hx : portOf ps K way x = some p) (hn : Named x) :
    PortRef "AbstractRequiredPortPrototypeRef" way x (reqRef (compOf ps K way v).ports p.ref) := by
  obtain ⟨h1, h2, h3, h4⟩ := portOf_some hx
  refine ⟨shortName x, destOf p.kind, hn.name, dest_kind h1, ?_⟩
  rw [reqRef, dest_required h, h3]

theorem prov_ref {n : List Char} {p : Swc.EvPort} {x : Val Cls} (h : Provided (compOf ps K way v) n p)
    (hx : portOf ps K way x = some p) (hn : Named x) :
    PortRef "AbstractProvidedPortPrototypeRef" way x (provRef (compOf ps K way v).ports p.ref) := by
  obtain ⟨h1, h2, h3, h4⟩ := portOf_some hx
  refine ⟨shortName x, destOf p.kind, hn.name, dest_kind h1, ?_⟩
  rw [provRef, dest_provided h, h3]

theorem part_ref {c dest : String} {w : List String} {x : Val Cls} (hn : Named x) :
    PartRef c dest w x (.ref ⟨c, absRef (w ++ [shortName x]), dest⟩) := ⟨_, hn.name, rfl⟩

theorem group_attr {a : String} {w : List String} {g : Val Cls} (hn : Named g) :
    GroupAttr K a w g (refAttr a (groupRef (groupOf ps K w g).ref)) := by
  unfold GroupAttr groupOf
  cases hk : K.group w with
  | true => exact .inl ⟨rfl, _, part_ref hn, by simp [groupRef, refAttr]⟩
  | false => exact .inr ⟨rfl, by simp [groupRef, refAttr]⟩

theorem num_attr (a : String) (n : Option Verif.Num.PyNum) : NumAttr a n (numAttr a n) := by
  cases n with
  | none => exact .inl ⟨rfl, rfl⟩
  | some n => exact .inr ⟨n, rfl, rfl⟩

theorem port_ref_eq {c : String} {x r s : Val Cls} (h1 : PortRef c way x r) (h2 : PortRef c way x s) :
    r = s := by
  obtain ⟨n, d, h3, h4, rfl⟩ := h1
  obtain ⟨n', d', h5, h6, rfl⟩ := h2
  rw [h3] at h5
  cases h5
  cases h4 <;> cases h6 <;> rfl

theorem part_ref_eq {c d : String} {w : List String} {x r s : Val Cls} (h1 : PartRef c d w x r)
    (h2 : PartRef c d w x s) : r = s := by
  obtain ⟨n, h3, rfl⟩ := h1
  obtain ⟨n', h5, rfl⟩ := h2
  rw [h3] at h5
  cases h5
  rfl

theorem group_attr_eq {a : String} {w : List String} {g : Val Cls} {f f' : List (String × Val Cls)}
    (h1 : GroupAttr K a w g f) (h2 : GroupAttr K a w g f') : f = f' := by
  rcases h1 with ⟨hk, r, hr, rfl⟩ | ⟨hk, rfl⟩ <;> rcases h2 with ⟨hk', r', hr', rfl⟩ | ⟨hk', rfl⟩
  · rw [part_ref_eq hr hr']
  · rw [hk] at hk'; cases hk'
  · rw [hk] at hk'; cases hk'
  · rfl

theorem num_attr_eq {a : String} {n : Option Verif.Num.PyNum} {f : List (String × Val Cls)}
    (h : NumAttr a n f) : f = numAttr a n := by
  rcases h with ⟨rfl, rfl⟩ | ⟨x, rfl, rfl⟩ <;> rfl

theorem mode_in (h : IsApp ps way v) {text : List Char} {m : String × Option String × String}
    (hm : Mode (compOf ps K way v) text m) :
    ModeIn ps K way v text (modeObj (compOf ps K way v).ports m) := by
  cases hm with
  | mk h1 h2 h3 h4 h5 h6 h7 =>
    obtain ⟨x, hx, hr⟩ := (required_iff h).1 h4
    rw [(portOf_some hx).2.2.2] at h5
    obtain ⟨wayI, t, g, hl, hg, rfl⟩ := (ms_iff h.wf).1 h5
    obtain ⟨wayT, t', hl', rfl⟩ := (type_iff h.wf).1 h6
    have hn := lead_named h.wf hl' (b := "mode_declarations") (by simp [lists])
    obtain ⟨y, hy, rfl⟩ := first_map.1 h7
    have hyn := hn y (first_mem hy)
    have hy' : First (members t' "mode_declarations") (Called _) y :=
      (first_congr fun z hz => (called_iff (hn z hz) _).symm).1 hy
    exact .mk h1 h2 h3 hr hl hg hl' hy' (req_ref h4 hx (port_named h (first_mem hr)))
      (group_attr (ps := ps) (group_named h.wf hl hg)) (part_ref hyn)

theorem mode_back (h : IsApp ps way v) {text : List Char} {o : Val Cls} (hm : ModeIn ps K way v text o) :
    ∃ m, Mode (compOf ps K way v) text m ∧ modeObj (compOf ps K way v).ports m = o := by
  cases hm with
  | @mk pn mn x i g t y rp rm wayI wayT fg h1 h2 h3 hr hl hg hl' hy h8 h9 h10 =>
    have hxn := port_named h (first_mem hr)
    have hpk : ∃ p, portOf ps K way x = some p := by
      obtain ⟨-, -, -, ⟨hc, -⟩, -⟩ := hr
      rcases hc with hc | hc
      · exact ⟨_, by rw [portOf, (kind_class x .r).2 hc]; rfl⟩
      · exact ⟨_, by rw [portOf, (kind_class x .pr).2 hc]; rfl⟩
    obtain ⟨p, hp⟩ := hpk
    have h4 := (required_iff h).2 ⟨x, hp, hr⟩
    have h5 := (ms_iff (K := K) h.wf).2 ⟨wayI, i, g, hl, hg, rfl⟩
    rw [← (portOf_some hp).2.2.2] at h5
    have h6 := (type_iff h.wf).2 ⟨wayT, t, hl', rfl⟩
    have hn := lead_named h.wf hl' (b := "mode_declarations") (by simp [lists])
    have h7 : First ((members t "mode_declarations").map (elemOf wayT)) (fun x => x.name.toList = mn)
        (elemOf wayT y) :=
      first_map.2 ⟨y, (first_congr fun z hz => (called_iff (hn z hz) _).symm).2 hy, rfl⟩
    refine ⟨_, .mk h1 h2 h3 h4 h5 h6 h7, ?_⟩
    unfold modeObj
    rw [port_ref_eq h8 (req_ref h4 hp hxn), group_attr_eq h9 (group_attr (ps := ps) (group_named h.wf hl hg)),
      part_ref_eq h10 (part_ref (hn y (first_mem hy)))]
    rfl

theorem act_eq {a : Option String} {f : List (String × Val Cls)} (h : Activation a f) :
    f = actAttr a := by
  rcases h with ⟨rfl, rfl⟩ | ⟨x, rfl, rfl⟩ <;> rfl

theorem act_attr (a : Option String) : Activation a (actAttr a) := by
  cases a with
  | none => exact .inl ⟨rfl, rfl⟩
  | some a => exact .inr ⟨a, rfl, rfl⟩

/-- What the model of events has, on objects. -/
theorem about_of (h : IsApp ps way v) {swc : Option Swc.EvComp} {req : Swc.Request} {kind : Swc.EventKind}
    {key : String} {parts : List String} {t : Swc.EvTarget} (hs : swc = some (compOf ps K way v) ∨ swc = none)
    (hw : Wants swc req kind key parts t) :
    ∃ objs, About ps K way v req (kindCls kind) key objs (targetFields (compOf ps K way v).ports t) ∧
      objs.map elemName = parts.map some := by
  have hc : ∀ {c}, swc = some c → c = compOf ps K way v := by
    intro c hc
    rcases hs with hs | hs <;> rw [hs] at hc <;> cases hc
    rfl
  cases hw with
  | background => exact ⟨[], .background, rfl⟩
  | init => exact ⟨[], .init, rfl⟩
  | timing => exact ⟨[], .timing (num_attr _ _) (num_attr _ _), rfl⟩
  | dataReceiveError hs hroot hm hp hi hch =>
    obtain rfl := hc hs
    obtain ⟨x, hx, hr⟩ := (required_iff h).1 hp
    rw [(portOf_some hx).2.2.2] at hi
    obtain ⟨wayI, i, hl, rfl⟩ := (sr_iff h.wf).1 hi
    have hn := lead_named h.wf hl (b := "data_elements") (by simp [lists])
    obtain ⟨y, hy, rfl⟩ := (picked_iff hn).1 hch
    have hxn := port_named h (first_mem hr)
    have hyn := hn y (picked_mem hy)
    refine ⟨[x, y], .dataReceiveError hm hr hl hy (req_ref hp hx hxn) (part_ref hyn), ?_⟩
    simp [hxn.name, hyn.name, (portOf_some hx).2.1, elemOf]
  | dataReceived hs hroot hm hp hi hch =>
    obtain rfl := hc hs
    obtain ⟨x, hx, hr⟩ := (required_iff h).1 hp
    rw [(portOf_some hx).2.2.2] at hi
    obtain ⟨wayI, i, hl, rfl⟩ := (sr_iff h.wf).1 hi
    have hn := lead_named h.wf hl (b := "data_elements") (by simp [lists])
    obtain ⟨y, hy, rfl⟩ := (picked_iff hn).1 hch
    have hxn := port_named h (first_mem hr)
    have hyn := hn y (picked_mem hy)
    refine ⟨[x, y], .dataReceived hm hr hl hy (req_ref hp hx hxn) (part_ref hyn), ?_⟩
    simp [hxn.name, hyn.name, (portOf_some hx).2.1, elemOf]
  | operationInvoked hs hroot hm hp hi hch =>
    obtain rfl := hc hs
    obtain ⟨x, hx, hr⟩ := (provided_iff h).1 hp
    rw [(portOf_some hx).2.2.2] at hi
    obtain ⟨wayI, i, hl, rfl⟩ := (cs_iff h.wf).1 hi
    have hn := lead_named h.wf hl (b := "operations") (by simp [lists])
    obtain ⟨y, hy, rfl⟩ := (picked_iff hn).1 hch
    have hxn := port_named h (first_mem hr)
    have hyn := hn y (picked_mem hy)
    refine ⟨[x, y], .operationInvoked hm hr hl hy (prov_ref hp hx hxn) (part_ref hyn), ?_⟩
    simp [hxn.name, hyn.name, (portOf_some hx).2.1, elemOf]
  | modeManagerError hs hroot hp hi =>
    obtain rfl := hc hs
    obtain ⟨x, hx, hr⟩ := (provided_iff h).1 hp
    rw [(portOf_some hx).2.2.2] at hi
    obtain ⟨wayI, i, g, hl, hg, rfl⟩ := (ms_iff h.wf).1 hi
    have hgn := group_named h.wf hl hg
    have hxn := port_named h (first_mem hr)
    refine ⟨[x, g], .modeManagerError hr hl hg (prov_ref hp hx hxn) (group_attr (ps := ps) hgn), ?_⟩
    simp [hxn.name, hgn.name, (portOf_some hx).2.1, groupOf]
  | mode hs hroot hm =>
    obtain rfl := hc hs
    exact ⟨[], .mode (mode_in h hm) (act_attr _), rfl⟩
  | transition hs hroot hm hm' =>
    obtain rfl := hc hs
    exact ⟨[], .transition (mode_in h hm) (mode_in h hm') (act_attr _), rfl⟩

theorem req_port {n : List Char} {x : Val Cls} (h : IsApp ps way v) (hr : RequiredPort v n x) :
    ∃ p, portOf ps K way x = some p ∧ Required (compOf ps K way v) n p := by
  have hpk : ∃ p, portOf ps K way x = some p := by
    obtain ⟨-, -, -, ⟨hc, -⟩, -⟩ := hr
    rcases hc with hc | hc
    · exact ⟨_, by rw [portOf, (kind_class x .r).2 hc]; rfl⟩
    · exact ⟨_, by rw [portOf, (kind_class x .pr).2 hc]; rfl⟩
  obtain ⟨p, hp⟩ := hpk
  exact ⟨p, hp, (required_iff h).2 ⟨x, hp, hr⟩⟩

theorem prov_port {n : List Char} {x : Val Cls} (h : IsApp ps way v) (hr : ProvidedPort v n x) :
    ∃ p, portOf ps K way x = some p ∧ Provided (compOf ps K way v) n p := by
  have hpk : ∃ p, portOf ps K way x = some p := by
    obtain ⟨-, -, -, ⟨hc, -⟩, -⟩ := hr
    rcases hc with hc | hc
    · exact ⟨_, by rw [portOf, (kind_class x .p).2 hc]; rfl⟩
    · exact ⟨_, by rw [portOf, (kind_class x .pr).2 hc]; rfl⟩
  obtain ⟨p, hp⟩ := hpk
  exact ⟨p, hp, (provided_iff h).2 ⟨x, hp, hr⟩⟩

/-- The other direction. -/
theorem wants_of (h : IsApp ps way v) {req : Swc.Request} {c : Cls} {key : String} {objs : List (Val Cls)}
    {fs : List (String × Val Cls)} (ha : About ps K way v req c key objs fs) :
    ∃ kind parts t, Wants (some (compOf ps K way v)) req kind key parts t ∧ kindCls kind = c ∧
      targetFields (compOf ps K way v).ports t = fs ∧ objs.map elemName = parts.map some := by
  cases ha with
  | background => exact ⟨_, _, _, .background, rfl, rfl, rfl⟩
  | init => exact ⟨_, _, _, .init, rfl, rfl, rfl⟩
  | timing h1 h2 => exact ⟨_, _, _, .timing, rfl, by rw [num_attr_eq h1, num_attr_eq h2]; rfl, rfl⟩
  | dataReceiveError hm hr hl hy h1 h2 =>
    obtain ⟨p, hp, hreq⟩ := req_port (K := K) h hr
    have hi := (sr_iff (K := K) h.wf).2 ⟨_, _, hl, rfl⟩
    rw [← (portOf_some hp).2.2.2] at hi
    have hn := lead_named h.wf hl (b := "data_elements") (by simp [lists])
    have hxn := port_named h (first_mem hr)
    have hyn := hn _ (picked_mem hy)
    refine ⟨_, _, _, .dataReceiveError rfl (by simp [compOf]) hm hreq hi ((picked_iff hn).2 ⟨_, hy, rfl⟩), rfl, ?_, ?_⟩
    · rw [port_ref_eq h1 (req_ref hreq hp hxn), part_ref_eq h2 (part_ref hyn)]; rfl
    · simp [hxn.name, hyn.name, (portOf_some hp).2.1, elemOf]
  | dataReceived hm hr hl hy h1 h2 =>
    obtain ⟨p, hp, hreq⟩ := req_port (K := K) h hr
    have hi := (sr_iff (K := K) h.wf).2 ⟨_, _, hl, rfl⟩
    rw [← (portOf_some hp).2.2.2] at hi
    have hn := lead_named h.wf hl (b := "data_elements") (by simp [lists])
    have hxn := port_named h (first_mem hr)
    have hyn := hn _ (picked_mem hy)
    refine ⟨_, _, _, .dataReceived rfl (by simp [compOf]) hm hreq hi ((picked_iff hn).2 ⟨_, hy, rfl⟩), rfl, ?_, ?_⟩
    · rw [port_ref_eq h1 (req_ref hreq hp hxn), part_ref_eq h2 (part_ref hyn)]; rfl
    · simp [hxn.name, hyn.name, (portOf_some hp).2.1, elemOf]
  | operationInvoked hm hr hl hy h1 h2 =>
    obtain ⟨p, hp, hreq⟩ := prov_port (K := K) h hr
    have hi := (cs_iff (K := K) h.wf).2 ⟨_, _, hl, rfl⟩
    rw [← (portOf_some hp).2.2.2] at hi
    have hn := lead_named h.wf hl (b := "operations") (by simp [lists])
    have hxn := port_named h (first_mem hr)
    have hyn := hn _ (picked_mem hy)
    refine ⟨_, _, _, .operationInvoked rfl (by simp [compOf]) hm hreq hi ((picked_iff hn).2 ⟨_, hy, rfl⟩), rfl, ?_, ?_⟩
    · rw [port_ref_eq h1 (prov_ref hreq hp hxn), part_ref_eq h2 (part_ref hyn)]; rfl
    · simp [hxn.name, hyn.name, (portOf_some hp).2.1, elemOf]
  | modeManagerError hr hl hg h1 h2 =>
    obtain ⟨p, hp, hreq⟩ := prov_port (K := K) h hr
    have hi := (ms_iff (K := K) h.wf).2 ⟨_, _, _, hl, hg, rfl⟩
    rw [← (portOf_some hp).2.2.2] at hi
    have hxn := port_named h (first_mem hr)
    have hgn := group_named h.wf hl hg
    refine ⟨_, _, _, .modeManagerError rfl (by simp [compOf]) hreq hi, rfl, ?_, ?_⟩
    · rw [port_ref_eq h1 (prov_ref hreq hp hxn), group_attr_eq h2 (group_attr (ps := ps) hgn)]; rfl
    · simp [hxn.name, hgn.name, (portOf_some hp).2.1, groupOf]
  | mode hm ha =>
    obtain ⟨m, h1, rfl⟩ := mode_back h hm
    exact ⟨_, _, _, .mode rfl (by simp [compOf]) h1, rfl, by rw [act_eq ha]; rfl, rfl⟩
  | transition hm hm' ha =>
    obtain ⟨m, h1, rfl⟩ := mode_back h hm
    obtain ⟨m', h1', rfl⟩ := mode_back h hm'
    exact ⟨_, _, _, .transition rfl (by simp [compOf]) h1 h1', rfl, by rw [act_eq ha]; rfl, rfl⟩

end Verif.Codec.Event
