import Verif.Codec.SelectProof
import Verif.Props.CodecConnect
/-
C70: iterations over the elements of packages and the ports of components.
-/
set_option linter.unusedSimpArgs false
namespace Verif.Props.CodecSelect
open Verif.Py Verif.Ref Verif.Codec Verif.Codec.Spec Verif.Codec.Find Verif.Codec.FindSpec Verif.Codec.Select
open Verif.Codec.SelectSpec
open Verif.Codec.History (Thing choose withPart)
open Verif.Codec.Older.Spec (areasNamedPkgs SameSide)
open Verif.Props.CodecConnect (element_norm package_norm)

/-- C70, for both kinds of objects: while an object is changed by calls and any number of iterations go on, the
iterations change nothing, and each yields, in order and each once, the items that it asks for. -/
theorem live {S A : Type} {K : Kind S A} {good : S → Prop} (hg : Grows K good) (o : S) (ho : good o)
    (steps : List (Step A)) {k : Nat} {s : Sel} (hk : (starts steps)[k]? = some s) :
    ∃ l log answer, l = K.items ((acts steps).foldl (fun o a => K.act a o) o) ∧
      (run K ⟨o, []⟩ steps).2 = log ∧
      (run K ⟨o, []⟩ (steps ++ [.next k])).2 = log ++ [(k, answer)] ∧
      yielded k log <+: l.filter (wanted s) ∧
      (match answer with
        | .item v => ended k log = false ∧ yielded k log ++ [v] <+: l.filter (wanted s)
        | .stop => ended k log = true ∨ yielded k log = l.filter (wanted s) ∧ ∀ e, ¬ Fails s l e
        | .raised e => ended k log = false ∧ Fails s l e) := by
  obtain ⟨f1, f2⟩ := run_frame (K := K) steps ⟨o, []⟩
  have hinv : Inv K good ⟨o, []⟩ [] := ⟨ho, by simp, fun k _ => ⟨rfl, rfl⟩⟩
  have h := run_inv hg steps _ _ hinv
  rw [List.nil_append] at h
  simp only [List.map_nil, List.nil_append] at f2
  have hgen : ∃ g, (run K ⟨o, []⟩ steps).1.gens[k]? = some (s, g) := by
    rw [← f2, List.getElem?_map] at hk
    cases hx : (run K ⟨o, []⟩ steps).1.gens[k]? with
    | none => rw [hx] at hk; cases hk
    | some p => rw [hx] at hk; obtain ⟨s', g⟩ := p; cases hk; exact ⟨g, rfl⟩
  obtain ⟨g, hgk⟩ := hgen
  have hst := h.2.1 k s g hgk
  obtain ⟨a1, a2⟩ := next_stage hst
  refine ⟨_, _, (next s (K.items (run K ⟨o, []⟩ steps).1.obj) g).1, rfl, rfl, ?_, ?_, ?_⟩
  · rw [run_append]
    simp only [run, step, hgk, List.append_nil]
  · rw [← f1]; exact stage_prefix hst
  · rw [← f1]
    revert a1
    generalize (next s (K.items (run K ⟨o, []⟩ steps).1.obj) g).1 = an
    cases an <;> exact id

/-- C70: packages. Elements and packages are appended (`acts`) while any number of iterations with `filter` and
`filter_regex` go on. At any time, what iteration number `k` has yielded are the first of the elements it asks for,
in the order of the package. When it is asked for the next one, it yields the next of them; or it stops, because it
has ended before or has yielded all that are there by now; or it fails, because what it was given is no pattern or
because an element has no name to match. It does not end without an exception if there is a reason to fail. -/
theorem C70_packages (p : Pkg) (steps : List (Step Thing)) (k : Nat) (s : Sel) (hk : (starts steps)[k]? = some s) :
    ∃ l log answer, l = ((acts steps).foldl (fun o a => History.put a o) p).elements ∧
      (run packages ⟨p, []⟩ steps).2 = log ∧
      (run packages ⟨p, []⟩ (steps ++ [.next k])).2 = log ++ [(k, answer)] ∧
      yielded k log <+: l.filter (wanted s) ∧
      (match answer with
        | .item v => ended k log = false ∧ yielded k log ++ [v] <+: l.filter (wanted s)
        | .stop => ended k log = true ∨ yielded k log = l.filter (wanted s) ∧ ∀ e, ¬ Fails s l e
        | .raised e => ended k log = false ∧ Fails s l e) :=
  live packages_grow p trivial steps hk

/-- C70: components. The same for the ports of a component while its `append*` methods are called. -/
theorem C70_components (v : Val Cls) (hv : classOf v = some .ApplicationSoftwareComponentType ∨
      classOf v = some .CompositionSwComponentType)
    (steps : List (Step (String × Val Cls))) (k : Nat) (s : Sel) (hk : (starts steps)[k]? = some s) :
    ∃ l log answer, l = members ((acts steps).foldl (fun o a => components.act a o) v) "ports" ∧
      (run components ⟨v, []⟩ steps).2 = log ∧
      (run components ⟨v, []⟩ (steps ++ [.next k])).2 = log ++ [(k, answer)] ∧
      yielded k log <+: l.filter (wanted s) ∧
      (match answer with
        | .item v => ended k log = false ∧ yielded k log ++ [v] <+: l.filter (wanted s)
        | .stop => ended k log = true ∨ yielded k log = l.filter (wanted s) ∧ ∀ e, ¬ Fails s l e
        | .raised e => ended k log = false ∧ Fails s l e) :=
  live components_grow v hv steps hk

theorem prefix_take {α : Type} {a : List α} {v : α} {l : List α} (h : a ++ [v] <+: l) {j : Nat} (ha : a = l.take j)
    (hj : j ≤ l.length) : j < l.length ∧ a ++ [v] = l.take (j + 1) := by
  have h1 : a.length = j := by rw [ha]; simp; omega
  have h2 := h.length_le
  simp only [List.length_append, List.length_singleton, h1] at h2
  refine ⟨h2, ?_⟩
  have := List.prefix_iff_eq_take.1 h
  rw [this]
  simp [h1]

theorem whole {S A : Type} {K : Kind S A} {good : S → Prop} (hg : Grows K good) (o : S) (ho : good o) (s : Sel)
    (hf : ∀ e, ¬ Fails s (K.items o) e) (rest : List (Step A)) (hr : rest = List.replicate
      (((K.items o).filter (wanted s)).length + 1) (.next 0)) :
    (run K ⟨o, []⟩ (.start s :: rest)).2 =
      ((K.items o).filter (wanted s)).map (fun v => (0, .item v)) ++ [(0, .stop)] := by
  have hacts : ∀ j, acts (Step.start s :: List.replicate j (Step.next 0) : List (Step A)) = [] := by
    intro j
    induction j with
    | zero => rfl
    | succ j ih => simp [acts, List.replicate_succ] at ih ⊢
  have hyld : ∀ l : List (Val Cls), yielded 0 (l.map fun v => (0, Answer.item v)) = l := by
    intro l
    induction l with
    | nil => rfl
    | cons v l ih => simp only [yielded, List.map_cons, List.filterMap_cons] at ih ⊢; simpa using ih
  have hend : ∀ l : List (Val Cls), ended 0 (l.map fun v => (0, Answer.item v)) = false := by
    intro l; simp [ended]
  have key : ∀ j, j ≤ ((K.items o).filter (wanted s)).length →
      (run K ⟨o, []⟩ (.start s :: List.replicate j (.next 0))).2 =
        (((K.items o).filter (wanted s)).take j).map (fun v => (0, .item v)) := by
    intro j
    induction j with
    | zero => intro _; simp [run, step]
    | succ j ih =>
      intro hj
      obtain ⟨l, log, an, h1, h2, h3, h4, h5⟩ := live hg o ho (.start s :: List.replicate j (.next 0)) (k := 0) (s := s) rfl
      rw [hacts] at h1
      simp only [List.foldl_nil] at h1
      subst h1
      have hlog := h2.symm.trans (ih (by omega))
      have hsteps : (Step.start s :: List.replicate j (Step.next 0) : List (Step A)) ++ [.next 0] =
          .start s :: List.replicate (j + 1) (.next 0) := by
        rw [List.replicate_succ', List.cons_append]
      rw [← hsteps, h3, hlog]
      rw [hlog, hyld, hend] at h5
      cases an with
      | item v =>
        obtain ⟨-, hp⟩ := prefix_take h5.2 rfl (by omega)
        rw [← hp, List.map_append]
        rfl
      | stop =>
        rcases h5 with h | ⟨h, -⟩
        · cases h
        · have := congrArg List.length h
          simp only [List.length_take] at this
          omega
      | raised e => exact absurd h5.2 (hf e)
  subst hr
  obtain ⟨l, log, an, h1, h2, h3, h4, h5⟩ := live hg o ho
    (.start s :: List.replicate ((K.items o).filter (wanted s)).length (.next 0)) (k := 0) (s := s) rfl
  rw [hacts] at h1
  simp only [List.foldl_nil] at h1
  subst h1
  have hlog := h2.symm.trans (key _ (Nat.le_refl _))
  rw [List.take_length] at hlog
  rw [List.replicate_succ', ← List.cons_append, h3, hlog]
  rw [hlog, hyld, hend] at h5
  cases an with
  | item v =>
    have := h5.2.length_le
    simp only [List.length_append, List.length_singleton] at this
    omega
  | stop => rfl
  | raised e => exact absurd h5.2 (hf e)

/-- C70: an iteration over a package or component that is not changed meanwhile yields all elements and ports it
asks for, in the order of the list, and then stops. -/
theorem C70_whole (s : Sel) :
    (∀ p : Pkg, (∀ e, ¬ Fails s p.elements e) →
      (run packages ⟨p, []⟩ (.start s :: List.replicate ((p.elements.filter (wanted s)).length + 1) (.next 0))).2 =
        (p.elements.filter (wanted s)).map (fun v => (0, .item v)) ++ [(0, .stop)]) ∧
    ∀ v, classOf v = some .ApplicationSoftwareComponentType ∨ classOf v = some .CompositionSwComponentType →
      (∀ e, ¬ Fails s (members v "ports") e) →
      (run components ⟨v, []⟩ (.start s :: List.replicate (((members v "ports").filter (wanted s)).length + 1)
        (.next 0))).2 = ((members v "ports").filter (wanted s)).map (fun v => (0, .item v)) ++ [(0, .stop)] :=
  ⟨fun p hf => whole packages_grow p trivial s hf _ rfl, fun v hv hf => whole components_grow v hv s hf _ rfl⟩

theorem wanted_norm (s : Sel) (b : Bool) (v : Val Cls) : wanted s (normVal tables b v) = wanted s v := by
  have h : elemName (normVal tables b v) = elemName v := elemName_norm b v
  have hc : classOf (normVal tables b v) = classOf v := by
    cases v with
    | num n => simp only [normVal]; split <;> rfl
    | _ => simp [normVal, classOf]
  cases s <;> simp [wanted, h, hc]

theorem fails_norm (s : Sel) (b : Bool) (l : List (Val Cls)) (e : PyErr) :
    Fails s (l.map (normVal tables b)) e ↔ Fails s l e := by
  have h : ∀ v, elemName (normVal tables b v) = elemName v := elemName_norm b
  have hm : (∃ v ∈ l.map (normVal tables b), elemName v = none) ↔ ∃ v ∈ l, elemName v = none := by
    constructor
    · rintro ⟨v, hv, hn⟩
      obtain ⟨u, hu, rfl⟩ := List.mem_map.1 hv
      exact ⟨u, hu, (h u).symm.trans hn⟩
    · rintro ⟨u, hu, hn⟩
      exact ⟨_, List.mem_map.2 ⟨u, hu, rfl⟩, (h u).trans hn⟩
  simp only [Fails, hm]

theorem filter_norm (s : Sel) (b : Bool) (l : List (Val Cls)) :
    (l.map (normVal tables b)).filter (wanted s) = (l.filter (wanted s)).map (normVal tables b) := by
  rw [List.filter_map]
  congr 1
  exact List.filter_congr fun v _ => wanted_norm s b v

theorem same_map (b : Bool) : ∀ l : List (Val Cls), SameList (l.map remains) (l.map (normVal tables b))
  | [] => .nil
  | v :: l => .cons (same_norm b v) (same_map b l)

/-- The two lists are alike for all iterations: the same items are yielded, with the same names, or the same
exception is raised. -/
def SameFor (l l' : List (Val Cls)) : Prop :=
  ∀ s, (∀ e, Fails s l' e ↔ Fails s l e) ∧
    SameList ((l.filter (wanted s)).map remains) (l'.filter (wanted s)) ∧
    (l'.filter (wanted s)).map elemName = (l.filter (wanted s)).map elemName

theorem sameFor_norm (b : Bool) (l : List (Val Cls)) : SameFor l (l.map (normVal tables b)) := by
  intro s
  refine ⟨fails_norm s b l, ?_, ?_⟩
  · rw [filter_norm]; exact same_map b _
  · rw [filter_norm, List.map_map]
    exact List.map_congr_left fun v _ => elemName_norm b v

/-- C70: what iterations yield is the same after saving and loading: for every package and every component of the
document, all of them yield the same elements and ports in the same order. -/
theorem C70_reload (skip stop : Bool) (version : Nat) (doc : Document)
    (h : WellFormedPkgs doc.packages) (hn : (doc.packages.map Pkg.name).Nodup)
    (ha : doc.schemaVersion < 50 → areasNamedPkgs doc.packages = true)
    (hv : skip = true → SameSide version doc.schemaVersion) :
    ∃ text doc', Older.writeDoc skip doc = .ok text ∧ Older.readDoc stop version text = .ok doc' ∧
      (∀ way p, PackageAt doc.packages way p →
        ∃ p', PackageAt doc'.packages way p' ∧ SameFor p.elements p'.elements) ∧
      ∀ way v, ElementAt doc.packages way v →
        ∃ v', ElementAt doc'.packages way v' ∧ SameFor (members v "ports") (members v' "ports") := by
  obtain ⟨text, w, r⟩ := Older.doc_rt skip stop version doc h hn ha hv
  refine ⟨text, _, w, r, fun way p hp => ⟨_, package_norm hp, ?_⟩, fun way v hv => ⟨_, element_norm hv, ?_⟩⟩
  · cases p with
    | mk hd es qs => exact sameFor_norm false es
  · obtain ⟨b, hb⟩ := Connect.members_kept false v "ports" (by simp)
    rw [hb]
    exact sameFor_norm b _

/-- C70: `provide_ports`, `require_ports` and `pr_ports` together yield every port of a component once, and none of
them raises an exception. -/
theorem C70_ports {c : Cls} {fs : List (String × Val Cls)} (h : WellFormed c (.obj c fs))
    (hc : c = .ApplicationSoftwareComponentType ∨ c = .CompositionSwComponentType) :
    (((members (.obj c fs) "ports").filter (wanted (.kind .ProvidePortPrototype))) ++
      ((members (.obj c fs) "ports").filter (wanted (.kind .RequirePortPrototype))) ++
      ((members (.obj c fs) "ports").filter (wanted (.kind .PRPortPrototype)))).Perm (members (.obj c fs) "ports") ∧
    ∀ k l e, ¬ Fails (.kind k) l e := by
  refine ⟨?_, fun k l e hf => ?_⟩
  · have hx : ∀ x ∈ members (.obj c fs) "ports", classOf x = some .ProvidePortPrototype ∨
        classOf x = some .RequirePortPrototype ∨ classOf x = some .PRPortPrototype := by
      intro x hx
      have hf : ∃ f, fieldOf (tables.schema c) "ports" = some f ∧ f.shape = .many none ∧ f.alts =
          [.cls .ProvidePortPrototype, .cls .RequirePortPrototype, .cls .PRPortPrototype] := by
        rcases hc with rfl | rfl <;> exact ⟨_, rfl, rfl, rfl⟩
      obtain ⟨f, f1, f2, f3⟩ := hf
      obtain ⟨⟨t, ht, h1⟩, h2⟩ := Connect.member_wf h f1 f2 hx
      rw [f3] at ht
      simp only [List.mem_cons, List.not_mem_nil, or_false] at ht
      rcases ht with rfl | rfl | rfl
      · obtain ⟨gs, rfl, -⟩ := Connect.of_cls h1 h2; exact .inl rfl
      · obtain ⟨gs, rfl, -⟩ := Connect.of_cls h1 h2; exact .inr (.inl rfl)
      · obtain ⟨gs, rfl, -⟩ := Connect.of_cls h1 h2; exact .inr (.inr rfl)
    revert hx
    generalize members (.obj c fs) "ports" = l
    intro hx
    induction l with
    | nil => exact List.Perm.refl _
    | cons x l ih =>
      have ih := ih fun y hy => hx y (List.mem_cons_of_mem _ hy)
      simp only [List.filter_cons]
      rcases hx x (by simp) with e | e | e
      · simpa [wanted, e] using ih
      · simp only [wanted, e] at ih ⊢
        simp only [List.append_assoc] at ih ⊢
        exact List.perm_middle.trans (ih.cons x)
      · simp only [wanted, e] at ih ⊢
        exact List.perm_middle.trans (ih.cons x)
  · rcases hf with hf | ⟨-, ⟨m, hm⟩, -⟩
    · cases hf
    · cases hm

theorem named_all (c : Cls) : isARElement c = true →
    fieldOf (tables.schema c) "name" = some (Schema.req "name" [.str]) := by
  cases c <;> first | exact fun _ => rfl | (intro h; cases h)

theorem wf_elem {p : Pkg} (h : WellFormedPkg p) {v : Val Cls} (hv : v ∈ p.elements) :
    ∃ c, isARElement c = true ∧ WellFormed c v := by
  cases p with
  | mk hd es ps => rw [WellFormedPkg] at h; exact h.2.1 v hv

/-- C70: over the elements of a well-formed package, an iteration raises an exception only if what it was given is
no pattern. -/
theorem C70_named {p : Pkg} (h : WellFormedPkg p) (s : Sel) (e : PyErr) (hf : Fails s p.elements e) :
    s = .wrong e := by
  rcases hf with hf | ⟨-, -, v, hv, hn⟩
  · exact hf
  · obtain ⟨c, hc, hw⟩ := wf_elem h hv
    have hk : ∃ fs, v = .obj c fs := by
      obtain ⟨gs, hg, -⟩ := Connect.of_cls hw.1 hw.2
      exact ⟨gs, hg⟩
    obtain ⟨fs, rfl⟩ := hk
    obtain ⟨n, n1, -⟩ := Connect.name_there hw (named_all c hc)
    simp only [elemName] at hn
    rw [hn] at n1
    cases n1

/-! ### Examples -/

def unit (n : String) : Val Cls := .obj .Unit [("name", .str n)]

/-- `it = package.filter("A", "C")`; `next(it)`; `C` is appended; `next(it)` yields it; the iteration stops, also
after another `append`.  The second iteration is given a number instead of a pattern, which shows only when its first
item is asked for. -/
def filtering : List (Step Thing) :=
  [.start (.names [some "A", some "C"]), .start (.wrong .typeError), .next 0, .act (.element (unit "C")), .next 0,
   .next 0, .next 1, .next 1, .act (.element (unit "A")), .next 0]

example : (starts filtering)[0]? = some (.names [some "A", some "C"]) ∧
    (run packages ⟨.mk [("name", .str "P")] [unit "A", unit "B"] [], []⟩ filtering).2 =
      [(0, .item (unit "A")), (0, .item (unit "C")), (0, .stop), (1, .raised .typeError), (1, .stop), (0, .stop)] :=
  ⟨rfl, by with_unfolding_all rfl⟩

/-- `provide_ports` of a component to which a port is appended meanwhile. -/
example : (run components ⟨CodecConnect.sender, []⟩
      [.start (.kind .ProvidePortPrototype), .next 0,
       .act ("append_port", .obj .ProvidePortPrototype [("name", .str "More")]),
       .act ("append_port", .obj .RequirePortPrototype [("name", .str "Less")]), .next 0, .next 0]).2.length = 3 ∧
    yielded 0 (run components ⟨CodecConnect.sender, []⟩
      [.start (.kind .ProvidePortPrototype), .next 0,
       .act ("append_port", .obj .ProvidePortPrototype [("name", .str "More")]),
       .act ("append_port", .obj .RequirePortPrototype [("name", .str "Less")]), .next 0, .next 0]).2 =
      members CodecConnect.sender "ports" ++ [.obj .ProvidePortPrototype [("name", .str "More")]] :=
  ⟨by with_unfolding_all rfl, by with_unfolding_all rfl⟩

/-- The document of C67 meets the hypotheses. -/
example : ∃ text doc', Older.writeDoc false CodecConnect.sample = .ok text ∧
    Older.readDoc false 51 text = .ok doc' ∧ ∃ v', ElementAt doc'.packages ["Swcs", "System"] v' ∧
      SameFor (members CodecConnect.system "ports") (members v' "ports") := by
  obtain ⟨t, d, h1, h2, -, h4⟩ := C70_reload false false 51 CodecConnect.sample CodecConnect.sample_wf (by decide)
    (fun h => absurd h (by decide)) (fun h => absurd h (by decide))
  exact ⟨t, d, h1, h2, h4 _ _ CodecConnect.sample_at⟩

end Verif.Props.CodecSelect
