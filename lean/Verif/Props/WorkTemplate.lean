import Verif.Work.TemplateLemmas
/-
C27: element templates (template.py, workspace.py 161-170, 332-375).
-/
set_option linter.unusedSimpArgs false
namespace Verif.Props.WorkTemplate
open Verif.Py Verif.Pkg Verif.Pkg.Spec Verif.Work

/-- A workspace before any template was applied, whatever packages it already has. -/
structure Start (w : Ws) : Prop where
  heap : Reachable w.heap
  root : w.root < w.heap.next ∧ (w.heap.obj w.root).cls = .collection
  trace : w.trace = []

theorem Start.wsInv {w : Ws} (s : Start w) : WsInv w := ⟨s.heap.inv, s.root.1, s.root.2⟩

/-- The create call returned an element of the announced name, meant to be put into the package. -/
def Delivered (c : Call) : Prop :=
  c.append = true ∧ ∃ o k, c.result = .ok (some o) ∧ (c.after.obj o).cls = .element k ∧
    (c.after.obj o).name = c.name

/-- C27: in any history of template applications (direct or as dependencies, of any templates, in
any order, failing or not) and other package calls, once a create call has delivered its element
there is never another create call for that name in that package. -/
theorem C27_create_once (w : Ws) (s : Start w) (ops : List WsOp) (pre mid post : List Call)
    (c d : Call) (ht : (wrun w ops).trace = pre ++ c :: mid ++ d :: post) (hc : Delivered c)
    (hn : '/' ∉ c.name.toList) : ¬ (d.pkg = c.pkg ∧ d.name = c.name) := by
  have T0 : TraceInv w := ⟨by simp [s.trace], by simp [s.trace]⟩
  have T := (wrun_spec ops w s.wsInv).2.2 T0
  have hp := T.once
  rw [ht, List.append_assoc, List.pairwise_append] at hp
  have := hp.2.1
  rw [List.cons_append, List.pairwise_cons] at this
  exact this.1 d (by simp) hc hn

/-- C27: a successful application of a proper template gives an element; applying the template
again, any number of calls later and with whatever keyword arguments, gives the same element,
calls no create method and changes nothing. -/
theorem C27_same_element (w : Ws) (s : Start w) (before : List WsOp) (t : Template) (hp : Proper t)
    (kw : List String) (w' : Ws) (r : Option Nat) (ha : apply (wrun w before) kw t = (w', .ok r)) :
    ∃ o, r = some o ∧ ∀ (ops : List WsOp) (kw' : List String),
      apply (wrun w' ops) kw' t = (wrun w' ops, .ok (some o)) := by
  have W := (wrun_spec before w s.wsInv).2.1
  obtain ⟨o, ho, hE⟩ := apply_est _ W kw t hp w' r ha
  have hs := apply_spec _ W kw t
  rw [ha] at hs
  refine ⟨o, ho, ?_⟩
  intro ops kw'
  have hr := wrun_spec ops w' hs.2.1
  exact est_apply _ kw' t o (est_later hs.2.1 hr.1.keep hr.1.root hr.1.nss t o hE)

/-- C27: after a successful application each dependency is there: applying it changes nothing. -/
theorem C27_dependency_there (w : Ws) (s : Start w) (before : List WsOp) (name nsName : String)
    (role : Role) (deps : List Template) (app : Bool)
    (create : Heap → Nat → List Nat → List String → Script) (hp : ProperAll deps) (kw : List String)
    (w' : Ws) (r : Option Nat)
    (ha : apply (wrun w before) kw (.element name nsName role deps app create) = (w', .ok r))
    (d : Template) (hd : d ∈ deps) :
    ∃ o, ∀ (ops : List WsOp) (kw' : List String),
      apply (wrun w' ops) kw' d = (wrun w' ops, .ok (some o)) := by
  have W := (wrun_spec before w s.wsInv).2.1
  have hs := apply_spec _ W kw (.element name nsName role deps app create)
  rw [ha] at hs
  simp only [apply] at ha
  rcases hq : applyDeps (wrun w before) deps with ⟨w1, o1⟩
  have hds := applyDeps_spec _ W deps
  rw [hq] at ha hds
  cases o1 with
  | error e => simp at ha
  | ok ds =>
    simp only at ha
    have hb := applyBody_spec w1 hds.2.1 kw name nsName role deps app create ds
    simp only [ha] at hb
    obtain ⟨_, e2, e3⟩ := applyDeps_est _ W deps hp w1 ds hq
    obtain ⟨i, hi, rfl⟩ := List.getElem_of_mem hd
    refine ⟨ds[i]'(by omega), ?_⟩
    intro ops kw'
    have hr := wrun_spec ops w' hs.2.1
    have L := hb.1.trans hr.1
    exact est_apply _ kw' _ _ (est_later hds.2.1 L.keep L.root L.nss _ _ (e3 i hi (by omega)).1)

/-- C27: the element is found under the reference the template announces (`Template.ref`,
template.py 78-83: the package reference of its role, a slash, the element name). -/
theorem C27_found_at_ref (w : Ws) (s : Start w) (before : List WsOp) (name nsName : String)
    (role : Role) (deps : List Template)
    (create : Heap → Nat → List Nat → List String → Script)
    (hp : Proper (.element name nsName role deps true create)) (hname : name ≠ "") (kw : List String)
    (place : List String) (hne : place ≠ []) (hg : ∀ n ∈ place, GoodName n)
    (href : packageRefByRole w.nss nsName role = .ok (absRef place)) (w' : Ws) (r : Option Nat)
    (ha : apply (wrun w before) kw (.element name nsName role deps true create) = (w', .ok r)) :
    ∃ o, r = some o ∧ (∀ ops, find (wrun w' ops).heap w.root (absRef place ++ "/" ++ name)
      = .ok (some o)) := by
  have hw := wrun_spec before w s.wsInv
  obtain ⟨o, ho, hE⟩ := apply_est _ hw.2.1 kw _ hp w' r ha
  have hs := apply_spec _ hw.2.1 kw (.element name nsName role deps true create)
  rw [ha] at hs
  refine ⟨o, ho, ?_⟩
  intro ops
  have hr := wrun_spec ops w' hs.2.1
  have hE' := est_later hs.2.1 hr.1.keep hr.1.root hr.1.nss _ _ hE
  have hroot : (wrun w' ops).root = w.root := by rw [hr.1.root, hs.1.root, hw.1.root]
  have hnss : (wrun w' ops).nss = w.nss := by rw [hr.1.nss, hs.1.nss, hw.1.nss]
  simp only [Proper] at hp
  have := (est_find hr.2.1 hE' hne hg ⟨hname, hp.2.2.1⟩ (by rw [hnss]; exact href)).1
  rw [hroot] at this
  exact this

/-- C27: whenever a create method is called, the element of each of its dependencies is already in
the workspace, under the reference that dependency announces, and is what create gets. -/
theorem C27_dependencies_first (w : Ws) (s : Start w) (ops : List WsOp) (c : Call)
    (hc : c ∈ (wrun w ops).trace) (hp : ProperAll c.deps) :
    c.depObjs.length = c.deps.length ∧
    ∀ i (h1 : i < c.deps.length) (h2 : i < c.depObjs.length)
      (name nsName : String) (role : Role) (deps : List Template) (app : Bool)
      (create : Heap → Nat → List Nat → List String → Script) (place : List String),
      c.deps[i] = .element name nsName role deps app create → GoodName name →
      place ≠ [] → (∀ n ∈ place, GoodName n) →
      packageRefByRole w.nss nsName role = .ok (absRef place) →
      find c.before w.root (absRef place ++ "/" ++ name) = .ok (some c.depObjs[i]) ∧
      ∃ k, (c.before.obj c.depObjs[i]).cls = .element k := by
  have hw := wrun_spec ops w s.wsInv
  have D0 : DepInv w := by intro c hc; rw [s.trace] at hc; simp at hc
  obtain ⟨h1, h2⟩ := wrun_depInv ops w s.wsInv D0 c hc hp
  refine ⟨h1, ?_⟩
  intro i i1 i2 name nsName role deps app create place he hgn hne hg href
  obtain ⟨hE, hel, _, W⟩ := h2 i i1 i2
  rw [he] at hE
  rw [hw.1.root] at hE W
  rw [hw.1.nss] at hE W
  exact ⟨(est_find W hE hne hg hgn href).1, isElement_iff.mp hel⟩

/-! ### Concrete cases -/

def ns1 : Dict Namespace :=
  (createNamespace [] "N" [("Unit", "Units"), ("BaseType", "Types/Base")] none).1

def w0 : Ws := ⟨run Heap.empty [.new .collection ""], 0, ns1, []⟩

theorem w0_start : Start w0 := ⟨⟨_, rfl⟩, by decide, rfl⟩

/-- create methods that make a plain element with the given name -/
def mk (n : String) : Heap → Nat → List Nat → List String → Script :=
  fun h _ _ _ => ([.new (.element .plain) n], .ok (some h.next))

def tUnit : Template := .element "Km" "N" (.std "UNIT") [] true (mk "Km")
def tBase : Template := .element "U8" "N" (.std "BASE_TYPE") [tUnit] true (mk "U8")
def tTop : Template := .element "T" "N" (.std "UNIT") [tBase, tUnit] true (mk "T")

theorem mk_proper (n : String) (h : Heap) (pkg : Nat) (ds : List Nat) (kw : List String) (o : Nat)
    (hr : (mk n h pkg ds kw).2 = .ok (some o)) :
    ((run h (mk n h pkg ds kw).1).obj o).name = n := by
  simp only [mk, Except.ok.injEq, Option.some.injEq] at hr
  subst hr
  simp [mk, run, step, Op.valid, Heap.alloc]

theorem tTop_proper : Proper tTop := by
  simp only [tTop, tBase, tUnit, Proper, ProperAll, true_and, and_true]
  refine ⟨⟨⟨⟨by decide, fun h p ds kw o => mk_proper _ h p ds kw o⟩, by decide,
    fun h p ds kw o => mk_proper _ h p ds kw o⟩, by decide,
    fun h p ds kw o => mk_proper _ h p ds kw o⟩, by decide, fun h p ds kw o => mk_proper _ h p ds kw o⟩

-- three creations for three names, in dependency order, whatever is applied afterwards
example : (apply w0 [] tTop).2 = .ok (some 7) ∧
    (apply w0 [] tTop).1.trace.map (fun c => (c.name, c.depObjs)) =
      [("Km", []), ("U8", [3]), ("T", [6, 3])] ∧
    (wrun w0 [.apply tTop [], .apply tBase ["x"], .apply tTop []]).trace.length = 3 ∧
    find (apply w0 [] tTop).1.heap 0 "/N/Types/Base/U8" = .ok (some 6) := by decide +kernel

example : packageRefByRole ns1 "N" (.std "BASE_TYPE") = .ok (absRef ["N", "Types", "Base"]) := by
  decide +kernel

/-- Outside proper templates the property fails: without `append_to_package` every application
creates a new element, and a create method that returns an element of another name is called again
and the second application raises DuplicateElement. -/
theorem C27_counterexample :
    (∃ t : Template, (apply w0 [] t).2 = .ok (some 3) ∧
      (apply (apply w0 [] t).1 [] t).2 = .ok (some 4)) ∧
    (∃ t : Template, (apply w0 [] t).2 = .ok (some 3) ∧
      (apply (apply w0 [] t).1 [] t).2 = .error .duplicateElement ∧
      (apply (apply w0 [] t).1 [] t).1.trace.length = 2) :=
  ⟨⟨.element "Km" "N" (.std "UNIT") [] false (mk "Km"), by decide +kernel⟩,
   ⟨.element "Km" "N" (.std "UNIT") [] true (mk "km"), by decide +kernel⟩⟩

/-- Errors: unknown namespace KeyError, unmapped role ValueError, no element or a non-element
TypeError, unknown template class NotImplementedError; a dependency's error is passed on before
create is called. -/
theorem C27_errors (w : Ws) (kw : List String) (name nsName : String) (role : Role) (app : Bool)
    (create : Heap → Nat → List Nat → List String → Script) (deps : List Template) :
    (dictGet w.nss nsName = none →
      apply w kw (.element name nsName role [] app create) = (w, .error .keyError)) ∧
    (∀ e, (applyDeps w deps).2 = .error e →
      (apply w kw (.element name nsName role deps app create)) = ((applyDeps w deps).1, .error e)) ∧
    apply w kw .other = (w, .error .notImplemented) ∧
    (∀ e d rest, (apply w [] d).2 = .error e → deps = d :: rest →
      (applyDeps w deps) = ((apply w [] d).1, .error e)) := by
  refine ⟨?_, ?_, by simp [apply], ?_⟩
  · intro h
    simp [apply, applyDeps, applyBody, packageRefByRole, h]
  · intro e he
    rcases hq : applyDeps w deps with ⟨w1, o⟩
    rw [hq] at he
    simp only at he
    subst he
    simp [apply, hq]
  · rintro e d rest he rfl
    rcases hq : apply w [] d with ⟨w1, o⟩
    rw [hq] at he
    simp only at he
    subst he
    simp [applyDeps, hq]

end Verif.Props.WorkTemplate
