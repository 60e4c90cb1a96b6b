import Verif.Swc.ConnectLemmas
/-
C33: connectors of a composition (element.py 5422-5549).
-/
namespace Verif.Props.SwcConnect
open Verif.Py Verif.Ref Verif.Swc Verif.Swc.Spec

/-- C33: whatever create_connector is given, if it returns a connector then both texts named ports
of the composition or of its components, the connector is of the kind and has the ends the two
places call for, and it was added to the composition, which is otherwise unchanged. -/
theorem C33_kind (env : Env) (c c' : Composition) (v1 v2 : PyVal) (k : Connector)
    (h : createConnector env c v1 v2 = (c', .ok k)) :
    ∃ s1 s2 e1 e2, v1 = .str s1 ∧ v2 = .str s2 ∧ Names env c s1 e1 ∧ Names env c s2 e2 ∧
      Joins c e1 e2 k.name k.joint ∧ c' = { c with conns := c.conns ++ [k] } := by
  obtain ⟨s1, s2, e1, e2, h1, h2, h3, h4, h5, h6, _⟩ := createConnector_ok h
  exact ⟨s1, s2, e1, e2, h1, h2, h3, h4, wanted_joins h5, h6⟩

/-- C33: conversely, when names are unambiguous, any two ports that can be joined are joined,
unless the connector's name is taken. -/
theorem C33_created (env : Env) (c : Composition) (s1 s2 : String) (e1 e2 : End) (n : String) (j : Joint)
    (hc : WellNamed c.inner c.ports)
    (ht : ∀ r t, env r = .ok (some (.swc t)) → WellNamed t.inner t.ports)
    (hne : ∀ x ∈ c.comps, x.name ≠ "") (hpe : ∀ x ∈ c.ports, x.name ≠ "")
    (h1 : Names env c s1 e1) (h2 : Names env c s2 e2) (hj : Joins c e1 e2 n j)
    (hfresh : n ∉ c.inner ∧ n ∉ c.ports.map (·.name)) (hn : '/' ∉ n.toList) :
    ∃ k, k.name = n ∧ k.joint = j ∧
      createConnector env c (.str s1) (.str s2) = ({ c with conns := c.conns ++ [k] }, .ok k) := by
  obtain ⟨b, hw⟩ := joins_wanted hj
  refine ⟨⟨n, j, b⟩, rfl, rfl, ?_⟩
  unfold createConnector
  rw [analyze_complete hc h1 ht hne hpe, analyze_complete hc h2 ht hne hpe]
  simp only [joinPlaces_wanted, hw]
  unfold addConnector
  have : c.find n.toList = none := by
    unfold Composition.find findIn
    rw [partL_no_sep '/' _ hn]
    simp only [String.ofList_toList]
    rw [if_neg hfresh.1]
    simp only [Option.map_eq_none_iff, List.find?_eq_none, decide_eq_true_eq]
    intro p hp hpn
    exact hfresh.2 (List.mem_map.mpr ⟨p, hp, hpn⟩)
  simp [this]

/-- C33: two inner ports that are not a provider and a requester are refused with ValueError, and
nothing changes. -/
theorem C33_same_direction_rejected (env : Env) (c : Composition) (s1 s2 : String)
    (x1 x2 : Proto) (t1 t2 : CompType) (p1 p2 : Port)
    (hc : WellNamed c.inner c.ports)
    (ht : ∀ r t, env r = .ok (some (.swc t)) → WellNamed t.inner t.ports)
    (hne : ∀ x ∈ c.comps, x.name ≠ "") (hpe : ∀ x ∈ c.ports, x.name ≠ "")
    (h1 : Names env c s1 (.inner x1 t1 p1)) (h2 : Names env c s2 (.inner x2 t2 p2))
    (hd : ¬ Directed (.inner x1 t1 p1) (.inner x2 t2 p2)) :
    createConnector env c (.str s1) (.str s2) = (c, .error .valueError) := by
  unfold createConnector
  rw [analyze_complete hc h1 ht hne hpe, analyze_complete hc h2 ht hne hpe]
  simp only [joinPlaces_wanted]
  have : wanted c (.inner x1 t1 p1) (.inner x2 t2 p2) = none := by
    simp only [Directed] at hd
    simp only [wanted]
    split
    · rename_i a b; exact absurd (.inr ⟨a, b⟩) hd
    · rename_i a b; exact absurd (.inl ⟨a, b⟩) hd
    · rfl
  rw [this]

/-- C33: a text without slash that names nothing in the composition is refused with ValueError when
it is the first, or when it is the second and the first names an end; nothing changes. -/
theorem C33_unknown_port_rejected (env : Env) (c : Composition) (s : String)
    (h0 : s.toList ≠ []) (hs : '/' ∉ s.toList) (hu : s ∉ c.inner ∧ s ∉ c.ports.map (·.name)) :
    (∀ v, createConnector env c (.str s) v = (c, .error .valueError)) ∧
    (∀ v r, analyze env c v = .ok r → createConnector env c v (.str s) = (c, .error .valueError)) := by
  have key : analyze env c (.str s) = .error .valueError := by
    have hf : c.find s.toList = none := by
      unfold Composition.find findIn
      rw [partL_no_sep '/' _ hs]
      simp only [String.ofList_toList]
      rw [if_neg hu.1]
      simp only [Option.map_eq_none_iff, List.find?_eq_none, decide_eq_true_eq]
      intro p hp hpn
      exact hu.2 (List.mem_map.mpr ⟨p, hp, hpn⟩)
    have hsp : splitRef (.str s) = .ok (some [s.toList]) := by
      cases hc : s.toList with
      | nil => exact absurd hc h0
      | cons a t =>
        have ha : a ≠ '/' := by rintro rfl; exact hs (by simp [hc])
        have := splitL_no_sep '/' _ (hc ▸ hs)
        simp [splitRef, hc, ha, this]
    simp only [analyze, hsp, hf]
  constructor
  · intro v; simp [createConnector, key]
  · intro v r hv; simp [createConnector, hv, key]

/-- C33: a refused connection changes nothing. -/
theorem C33_refused_unchanged (env : Env) (c c' : Composition) (v1 v2 : PyVal) (e : PyErr)
    (h : createConnector env c v1 v2 = (c', .error e)) : c' = c := createConnector_error h

/-- C33, the part about directions that holds: an assembly connector always runs from a provided
port to a required port, each below the component's own type.  Missing: delegation and
pass-through connectors, whose directions are not checked (`C33_counterexample`). -/
theorem C33_direction_partial (env : Env) (c c' : Composition) (v1 v2 : PyVal) (k : Connector)
    (prov req : InstRef) (h : createConnector env c v1 v2 = (c', .ok k)) (hk : k.joint = .assembly prov req) :
    (∀ r, prov.port = some r → r.dest = .p) ∧ (∀ r, req.port = some r → r.dest = .r) := by
  obtain ⟨s1, s2, e1, e2, h1, h2, h3, h4, h5, h6⟩ := C33_kind env c c' v1 v2 k h
  have aux : ∀ (x : Proto) (t : CompType) (p : Port) r, (instOf c x t p).port = some r → r.dest = p.kind := by
    intro x t p r hr
    simp only [instOf, refTo] at hr
    split at hr
    · simp only [Option.some.injEq] at hr; rw [← hr]
    · simp at hr
  rw [hk] at h5
  generalize k.name = n at h5
  generalize hj : Joint.assembly prov req = j at h5
  cases h5 with
  | assembly x1 t1 p1 x2 t2 p2 a b =>
    simp only [Joint.assembly.injEq] at hj
    obtain ⟨rfl, rfl⟩ := hj
    exact ⟨fun r hr => (aux _ _ _ r hr).trans a, fun r hr => (aux _ _ _ r hr).trans b⟩
  | assembly' x1 t1 p1 x2 t2 p2 a b =>
    simp only [Joint.assembly.injEq] at hj
    obtain ⟨rfl, rfl⟩ := hj
    exact ⟨fun r hr => (aux _ _ _ r hr).trans b, fun r hr => (aux _ _ _ r hr).trans a⟩
  | _ => simp at hj

/-- C33: through any series of create_connector calls, refused or not, the names in the composition
stay distinct and its components and ports stay as they are. -/
theorem C33_names_distinct (env : Env) (c : Composition) (calls : List (PyVal × PyVal))
    (hc : WellNamed c.inner c.ports) :
    let c' := compRun env c (calls.map fun v => .connect v.1 v.2)
    WellNamed c'.inner c'.ports ∧ c'.comps = c.comps ∧ c'.ports = c.ports ∧ c'.ref = c.ref ∧
      ∃ new, c'.conns = c.conns ++ new := by
  induction calls generalizing c with
  | nil => exact ⟨hc, rfl, rfl, rfl, [], by simp [compRun]⟩
  | cons v vs ih =>
    simp only [compRun, List.map_cons, List.foldl_cons, compStep]
    have key : WellNamed (createConnector env c v.1 v.2).1.inner (createConnector env c v.1 v.2).1.ports ∧
        (createConnector env c v.1 v.2).1.comps = c.comps ∧ (createConnector env c v.1 v.2).1.ports = c.ports ∧
        (createConnector env c v.1 v.2).1.ref = c.ref ∧
        ∃ new, (createConnector env c v.1 v.2).1.conns = c.conns ++ new := by
      rcases hr : createConnector env c v.1 v.2 with ⟨c', r⟩
      cases r with
      | error e =>
        have := C33_refused_unchanged env c c' v.1 v.2 e hr
        subst this
        exact ⟨hc, rfl, rfl, rfl, [], by simp⟩
      | ok k =>
        obtain ⟨s1, s2, e1, e2, _, _, n1, n2, hw, rfl, hf⟩ := createConnector_ok hr
        refine ⟨?_, rfl, rfl, rfl, [k], rfl⟩
        have hj := wanted_joins hw
        have hn1 : '/' ∉ e1.port.name.toList ∧ ∀ x t p, e1 = .inner x t p → '/' ∉ x.name.toList := by
          cases n1 with
          | outer p _ _ a => exact ⟨a, by simp⟩
          | inner x t p _ _ _ _ a b =>
            refine ⟨b, ?_⟩
            intro x' t' p' he
            simp only [End.inner.injEq] at he
            rw [← he.1]; exact a
        have hn2 : '/' ∉ e2.port.name.toList ∧ ∀ x t p, e2 = .inner x t p → '/' ∉ x.name.toList := by
          cases n2 with
          | outer p _ _ a => exact ⟨a, by simp⟩
          | inner x t p _ _ _ _ a b =>
            refine ⟨b, ?_⟩
            intro x' t' p' he
            simp only [End.inner.injEq] at he
            rw [← he.1]; exact a
        have hns : '/' ∉ k.name.toList := by
          generalize k.name = n at hj
          generalize k.joint = j at hj
          cases hj with
          | assembly x1 t1 p1 x2 t2 p2 a b =>
            have := hn1.2 _ _ _ rfl; have := hn2.2 _ _ _ rfl
            simp_all [End.port]
          | assembly' x1 t1 p1 x2 t2 p2 a b =>
            have := hn1.2 _ _ _ rfl; have := hn2.2 _ _ _ rfl
            simp_all [End.port]
          | delegation x t p q =>
            have := hn1.2 _ _ _ rfl
            split <;> simp_all [End.port]
          | delegation' x t p q =>
            have := hn2.2 _ _ _ rfl
            split <;> simp_all [End.port]
          | passThrough p q => simp_all [End.port]
        unfold Composition.find findIn at hf
        rw [partL_no_sep '/' _ hns] at hf
        simp only [String.ofList_toList] at hf
        split at hf
        · simp at hf
        · rename_i hni
          simp only [Option.map_eq_none_iff, List.find?_eq_none, decide_eq_true_eq] at hf
          unfold WellNamed Composition.inner at hc ⊢
          unfold Composition.inner at hni
          simp only [List.map_append, List.map_cons, List.map_nil] at hc ⊢
          have hp : (c.comps.map (·.name) ++ (c.conns.map (·.name) ++ [k.name]) ++ c.ports.map (·.name)).Perm
              (k.name :: (c.comps.map (·.name) ++ c.conns.map (·.name) ++ c.ports.map (·.name))) := by
            rw [← List.append_assoc, List.append_assoc _ [k.name]]
            exact List.perm_middle
          rw [hp.nodup_iff, List.nodup_cons]
          refine ⟨?_, hc⟩
          rw [List.mem_append]
          rintro (hm | hm)
          · exact hni hm
          · obtain ⟨p, hp1, hp2⟩ := List.mem_map.mp hm
            exact hf p hp1 hp2
    obtain ⟨k1, k2, k3, k4, new1, k5⟩ := key
    have h := ih _ k1
    simp only [compRun] at h
    obtain ⟨h1, h2, h3, h4, new2, h5⟩ := h
    exact ⟨h1, h2.trans k2, h3.trans k3, h4.trans k4, new1 ++ new2, by rw [h5, k5, List.append_assoc]⟩

/-! ### Concrete cases -/

/-- A composition with two components and three outer ports. -/
def demo : Composition :=
  { name := "Top", ref := some "/Comp/Top", comps := [⟨"a", some "/Comp/A"⟩, ⟨"b", some "/Comp/B"⟩],
    conns := [], ports := [⟨.p, "out"⟩, ⟨.r, "in"⟩, ⟨.r, "in2"⟩] }

def demoEnv : Env
  | "/Comp/A" => .ok (some (.swc ⟨"A", some "/Comp/A", [], [⟨.p, "speed"⟩, ⟨.pr, "state"⟩]⟩))
  | "/Comp/B" => .ok (some (.swc ⟨"B", some "/Comp/B", [], [⟨.r, "velocity"⟩]⟩))
  | _ => .ok none

/-- An assembly connector, the requester named first. -/
example : createConnector demoEnv demo (.str "b/velocity") (.str "/a/speed") =
    ({ demo with conns := [⟨"a_speed_b_velocity",
        .assembly ⟨some "/Comp/Top/a", some ⟨"/Comp/A/speed", .p⟩⟩ ⟨some "/Comp/Top/b", some ⟨"/Comp/B/velocity", .r⟩⟩,
        true⟩] },
     .ok ⟨"a_speed_b_velocity",
        .assembly ⟨some "/Comp/Top/a", some ⟨"/Comp/A/speed", .p⟩⟩ ⟨some "/Comp/Top/b", some ⟨"/Comp/B/velocity", .r⟩⟩,
        true⟩) := by decide +kernel

/-- The hypotheses of `C33_created` and `C33_same_direction_rejected` are met by these. -/
example : WellNamed demo.inner demo.ports := by unfold WellNamed; decide +kernel
example : ∀ r t, demoEnv r = .ok (some (.swc t)) → WellNamed t.inner t.ports := by
  intro r t h
  unfold demoEnv at h
  split at h <;> simp at h <;> subst h <;> (unfold WellNamed; decide +kernel)
example : Names demoEnv demo "a/speed" (.inner ⟨"a", some "/Comp/A"⟩
    ⟨"A", some "/Comp/A", [], [⟨.p, "speed"⟩, ⟨.pr, "state"⟩]⟩ ⟨.p, "speed"⟩) :=
  .inner _ _ _ _ (by decide) (by decide) (by decide) (by decide) (by decide) (by decide)
example : Names demoEnv demo "out" (.outer ⟨.p, "out"⟩) := .outer _ _ (by decide) (by decide) (by decide)

example : "nope".toList ≠ [] ∧ '/' ∉ "nope".toList ∧ "nope" ∉ demo.inner ∧
    "nope" ∉ demo.ports.map (·.name) := by decide

/-- C33 is false for the directions of the other connectors: two required outer ports are joined by
a pass-through connector, a provided inner port is delegated to a required outer one; and a
provide-require port is refused although it could be joined to a required port. -/
theorem C33_counterexample :
    (∃ k c', createConnector demoEnv demo (.str "in") (.str "in2") = (c', .ok k) ∧
      k.joint = .passThrough (some ⟨"/Comp/Top/in", .r⟩) (some ⟨"/Comp/Top/in2", .r⟩)) ∧
    (∃ k c', createConnector demoEnv demo (.str "a/speed") (.str "in") = (c', .ok k) ∧
      k.joint = .delegation ⟨some "/Comp/Top/a", some ⟨"/Comp/A/speed", .p⟩⟩ (some ⟨"/Comp/Top/in", .r⟩) ∧
      k.hasParent = false) ∧
    createConnector demoEnv demo (.str "a/state") (.str "b/velocity") = (demo, .error .valueError) ∧
    createConnector demoEnv demo (.str "c/velocity") (.str "out") = (demo, .error .attributeError) := by
  refine ⟨⟨_, _, rfl, rfl⟩, ⟨_, _, rfl, rfl, rfl⟩, by decide +kernel, by decide +kernel⟩

end Verif.Props.SwcConnect
