import Verif.Pkg.More
/-
Property theorems C01 - C07: packages, references, lookup.
`Reachable h` means: some history of constructor / append / create_package /
make_packages / member-append calls (including rejected ones) leads to `h`.
-/
set_option linter.unusedVariables false

namespace Verif.Props.Pkg
open Verif Verif.Pkg Verif.Pkg.Spec

/-! A concrete history used by the examples: a workspace (0) with package `A` (1)
holding package `B` (2), element `T` (3) in `B`, composition `C` (4) in `A` with
port `p` (5), and a detached element (6) called `T` whose append was rejected. -/
def sample : List Op :=
  [ .new .collection "", .collectionMake 0 ["/A/B"], .new (.element .plain) "T", .append 2 3,
    .new (.element .composition) "C", .append 1 4, .new (.member .port) "p", .addMember 4 5,
    .new (.element .plain) "T", .append 2 6 ]

def sampleHeap : Heap := run Heap.empty sample

theorem sample_reachable : Reachable sampleHeap := ⟨sample, rfl⟩

/-! ### C01 -/

/-- C01: in every reachable heap, a container never lists two items with one name,
lists no item twice, and looking up a listed item's name (without '/') in the
container returns that item. -/
theorem C01_sibling_names_unique (h : Heap) (r : Reachable h) (c : Nat) :
    (∀ x y, Holds h c x → Holds h c y → (h.obj x).name = (h.obj y).name → x = y) ∧
    ((h.obj c).packages ++ (h.obj c).elements).Nodup ∧
    (∀ x, Holds h c x → '/' ∉ (h.obj x).name.toList → find h c (h.obj x).name = .ok (some x)) := by
  have I := r.inv
  refine ⟨fun x y hx hy => holds_unique I hx hy, ?_, ?_⟩
  · have := I.nodup c
    rw [List.nodup_iff_pairwise_ne, List.pairwise_map] at this
    exact this.imp (fun hne e => hne (by rw [e]))
  · intro x hx hn
    have hden : Denotes (h.obj x).name.toList [(h.obj x).name] := by
      by_cases e : (h.obj x).name = ""
      · rw [e]; exact .empty
      · exact .last (.plain ⟨e, hn⟩)
    exact find_of_contains I hden (.here hx rfl)

example : Holds sampleHeap 1 2 ∧ Holds sampleHeap 1 4 ∧
    find sampleHeap 1 "C" = .ok (some 4) ∧ ¬ Holds sampleHeap 2 6 := by
  unfold Holds; decide

/-! ### C02 -/

/-- C02: an `append` that raises leaves the whole heap as it was. -/
theorem C02_rejected_append_unchanged (h : Heap) (c x : Nat) (e : PyErr)
    (hr : (append h c x).2 = .error e) : (append h c x).1 = h := by
  unfold append at hr ⊢
  cases hc : (h.obj c).cls with
  | element k => rfl
  | member k => rfl
  | package =>
    simp only [hc] at hr ⊢
    rcases packageAppend_cases h c x with ⟨h1, _⟩ | ⟨_, h2, _⟩
    · exact h1
    · rw [h2] at hr; simp at hr
  | collection =>
    simp only [hc] at hr ⊢
    rcases collectionAppend_cases h c x with h1 | ⟨_, h2, _⟩
    · exact h1
    · rw [h2] at hr; simp at hr

/-- C02: appending an item whose name is taken does raise (DuplicateElement from a
package, ValueError from a collection). -/
theorem C02_duplicate_append_raises (h : Heap) (r : Reachable h) (c x y : Nat)
    (hy : Holds h c y) (hn : (h.obj y).name = (h.obj x).name) :
    ((h.obj c).cls = .package → IsItem h x → (append h c x).2 = .error .duplicateElement) ∧
    ((h.obj c).cls = .collection → (h.obj x).cls = .package →
      (append h c x).2 = .error .valueError) := by
  have I := r.inv
  have hd : Py.dictHas (h.obj c).map (h.obj x).name = true := by
    have := (map_holds I c (h.obj x).name y).2 ⟨hy, hn⟩
    simp [Py.dictHas, this]
  constructor
  · intro hc hx
    rcases hx with hx | ⟨k, hx⟩ <;> simp [append, packageAppend, hc, hx, hd]
  · intro hc hx
    simp [append, collectionAppend, hc, hx, hd]

/-- C02, the other direction: a name that is not taken is accepted, and the item is
listed afterwards with the container as parent. -/
theorem C02_fresh_append_accepted (h : Heap) (r : Reachable h) (c x : Nat)
    (hcont : IsContainer h c) (hx : (h.obj x).cls = .package ∨
      ((h.obj c).cls = .package ∧ IsItem h x))
    (hfree : ∀ y, Holds h c y → (h.obj y).name ≠ (h.obj x).name) :
    (append h c x).2 = .ok () ∧ Holds (append h c x).1 c x ∧
      ((append h c x).1.obj x).parent = some c := by
  have I := r.inv
  have hd : Py.dictHas (h.obj c).map (h.obj x).name = false := by
    cases hg : Py.dictGet (h.obj c).map (h.obj x).name with
    | none => simp [Py.dictHas, hg]
    | some y =>
      obtain ⟨h1, h2⟩ := (map_holds I c _ y).1 hg
      exact absurd h2 (hfree y h1)
  have key : ∀ h', Attached h h' c x → Holds h' c x ∧ (h'.obj x).parent = some c := by
    intro h' A
    refine ⟨?_, by rw [A.parent]; simp⟩
    unfold Holds
    rw [A.packages, A.elements]
    by_cases hp : (h.obj x).cls = .package <;> simp [hp]
  unfold append
  rcases hcont with hc | hc
  · simp only [hc]
    rcases packageAppend_cases h c x with ⟨_, e, h2⟩ | ⟨A, h2, _⟩
    · exfalso
      rcases hx with hx | ⟨_, hx | ⟨k, hx⟩⟩ <;>
        simp [packageAppend, hx, hd] at h2
    · exact ⟨h2, key _ A⟩
  · simp only [hc]
    have hx' : (h.obj x).cls = .package := by
      rcases hx with hx | ⟨h1, _⟩
      · exact hx
      · rw [hc] at h1; simp at h1
    have A := attached_pkg h c x _ hx' rfl
    have heq : collectionAppend h c x =
        (mapSet (pushPackage (setParent h x c) c x) c (h.obj x).name x, .ok ()) := by
      simp [collectionAppend, hx', hd]
    rw [heq]
    exact ⟨rfl, key _ A⟩

/-- C02: what is neither a package nor an element is refused by packages with TypeError; documents ignore everything
that is no package, without an exception. Either way nothing changes. -/
theorem C02_other_items (h : Heap) (c x : Nat) :
    ((h.obj c).cls = .package → ¬ IsItem h x → append h c x = (h, .error .typeError)) ∧
    ((h.obj c).cls = .collection → (h.obj x).cls ≠ .package → append h c x = (h, .ok ())) := by
  refine ⟨fun hc hx => ?_, fun hc hx => ?_⟩
  · simp only [append, hc, packageAppend]
    cases hk : (h.obj x).cls with
    | package => exact absurd (.inl hk) hx
    | element k => exact absurd (.inr ⟨k, hk⟩) hx
    | _ => rfl
  · simp only [append, hc, collectionAppend]

example : (append sampleHeap 2 6).2 = .error .duplicateElement ∧
    (append sampleHeap 1 6).2 = .ok () := by decide

example : (sampleHeap.obj 0).cls = .collection ∧ (sampleHeap.obj 3).cls ≠ .package ∧
    (append sampleHeap 0 3).2 = .ok () := by decide

/-! ### C03 -/

/-- C03: for a package or element whose parent chain leads to collection `c` through
objects named `ns` (names non-empty, without '/'), `root_collection()` is `c`,
`ref()` is "/n1/n2/…", and looking that up in `c` gives the very same object. -/
theorem C03_find_ref (h : Heap) (r : Reachable h) (c x : Nat) (ns : List String)
    (hp : ParentPath h c ns x) (hx : IsItem h x) (g : ∀ n ∈ ns, GoodName n) :
    RootReturns h x (some c) ∧ RefReturns h x (some (absRef ns)) ∧
      find h c (absRef ns) = .ok (some x) := by
  have I := r.inv
  refine ⟨rootReturns_of_path I hp, refReturns_of_path I hp, ?_⟩
  exact find_of_contains I (absRef_denotes ns (parentPath_ne_nil hp) g) (contains_of_path I hp hx)

/-- C03 for members of elements (ports, component prototypes, connectors, mode
declarations): the same, provided the enclosing element has no other member with
that name. -/
theorem C03_find_ref_member (h : Heap) (r : Reachable h) (c m p : Nat) (ns : List String)
    (k : MemberKind) (hpath : ParentPath h c ns m) (hm : (h.obj m).cls = .member k)
    (hpar : (h.obj m).parent = some p) (g : ∀ n ∈ ns, GoodName n)
    (hu : ∀ m' ∈ (h.obj p).slotA ++ (h.obj p).slotB ++ (h.obj p).slotC,
      (h.obj m').name = (h.obj m).name → m' = m) :
    RefReturns h m (some (absRef ns)) ∧ find h c (absRef ns) = .ok (some m) := by
  have I := r.inv
  refine ⟨refReturns_of_path I hpath, ?_⟩
  obtain ⟨_, hcase⟩ := I.member_parent m p k hpar hm
  cases hpath with
  | top h1 h2 =>
    exfalso
    rw [hpar] at h1; injection h1 with h1; subst h1
    rcases hcase with ⟨e, _⟩ | ⟨ek, he, _⟩
    · subst e; rw [hm] at h2; simp at h2
    · rw [he] at h2; simp at h2
  | under hp2 h2 =>
    rename_i ns' p'
    rw [hpar] at h2; injection h2 with h2; subst h2
    rcases hcase with ⟨e, _⟩ | ⟨ek, he, hmem⟩
    · exfalso
      -- an object that is its own parent has no path to a collection
      subst e
      have loop : ∀ {ms : List String} {y : Nat}, ParentPath h c ms y → y = m → False := by
        intro ms y hq
        induction hq with
        | top a b =>
          intro e; subst e
          rw [hpar] at a; injection a with a; subst a
          rw [hm] at b; simp at b
        | under a b ih =>
          intro e; subst e
          rw [hpar] at b; injection b with b
          exact ih b.symm
      exact loop hp2 rfl
    · have hcon := contains_of_path I hp2 (Or.inr ⟨ek, he⟩)
      have gpre : ∀ n ∈ ns', GoodName n := fun n hn => g n (by simp [hn])
      have gm : GoodName (h.obj m).name := g _ (by simp)
      obtain ⟨q, qs, hq⟩ : ∃ q qs, ns' = q :: qs := by
        cases ns' with
        | nil => exact absurd rfl (contains_ne_nil hcon)
        | cons q qs => exact ⟨q, qs, rfl⟩
      have hf := find_rel_under_element I he (post := [(h.obj m).name]) (by simp)
        (by intro n hn; simp at hn; rw [hn]; exact gm) hcon gpre
      have hab : find h c (absRef (ns' ++ [(h.obj m).name])) =
          find h c (relRef (ns' ++ [(h.obj m).name])) := by
        rw [hq, List.cons_append]
        exact find_abs_rel (contains_container I hcon) _ (gpre q (by rw [hq]; simp))
      rw [hab, hf]
      have : relRef [(h.obj m).name] = (h.obj m).name := by simp [relRef, absRef]
      rw [this]
      exact elemFind_member I he hmem gm.2 hu

theorem sample_paths : ParentPath sampleHeap 0 ["A"] 1 ∧ ParentPath sampleHeap 0 ["A", "B", "T"] 3 ∧
    ParentPath sampleHeap 0 ["A", "C", "p"] 5 := by
  have n1 : (sampleHeap.obj 1).name = "A" := by decide
  have n2 : (sampleHeap.obj 2).name = "B" := by decide
  have n3 : (sampleHeap.obj 3).name = "T" := by decide
  have n4 : (sampleHeap.obj 4).name = "C" := by decide
  have n5 : (sampleHeap.obj 5).name = "p" := by decide
  have p1 := ParentPath.top (h := sampleHeap) (c := 0) (x := 1) (by decide) (by decide)
  have p2 := p1.under (x := 2) (by decide)
  have p3 := p2.under (x := 3) (by decide)
  have p4 := p1.under (x := 4) (by decide)
  have p5 := p4.under (x := 5) (by decide)
  rw [n1] at p1
  rw [n1, n2, n3] at p3
  rw [n1, n4, n5] at p5
  exact ⟨p1, p3, p5⟩

example : IsItem sampleHeap 3 ∧ find sampleHeap 0 "/A/B/T" = .ok (some 3) :=
  ⟨Or.inr ⟨.plain, by decide⟩, by decide⟩

example : (sampleHeap.obj 5).cls = .member .port ∧ (sampleHeap.obj 5).parent = some 4 ∧
    (sampleHeap.obj 4).slotC = [5] ∧ find sampleHeap 0 "/A/C/p" = .ok (some 5) := by decide

/-- The `GoodName` hypothesis of C03 is needed: an element inside a package whose
name is empty is not found under its own reference. -/
theorem C03_empty_name_counterexample : ∃ h c x r, Reachable h ∧ RefReturns h x (some r) ∧
    RootReturns h x (some c) ∧ find h c r ≠ .ok (some x) := by
  refine ⟨run Heap.empty [.new .collection "", .createPackage 0 "a", .createPackage 1 "",
    .createPackage 2 "b"], 0, 3, "/a//b", ⟨_, rfl⟩, ⟨4, by decide⟩, ⟨4, by decide⟩, by decide⟩

/-- Finding: a mode transition appended to its group becomes its own parent, so
`ref()` on it never returns. -/
theorem C03_mode_transition_ref_diverges (h : Heap) (g t : Nat)
    (hg : (h.obj g).cls = .element .modeGroup) (ht : (h.obj t).cls = .member .modeTrans)
    (r : Option String) : ¬ RefReturns (addMember h g t).1 t r := by
  have hne : t ≠ g := by intro e; subst e; rw [hg] at ht; simp at ht
  have hpar : ((addMember h g t).1.obj t).parent = some t := by
    simp [addMember, hg, ht, Heap.set, setParent, hne]
  have hcls : ((addMember h g t).1.obj t).cls = .member .modeTrans := by
    simp [addMember, hg, ht, Heap.set, setParent, hne]
  have hdiv : ∀ f, updateRefParts f (addMember h g t).1 t = none := by
    intro f
    induction f with
    | zero => rfl
    | succ f ih => simp [updateRefParts, hcls, hpar, ih]
  rintro ⟨f, hf⟩
  simp [calcRef, hpar, hdiv f] at hf

example : ∃ h : Heap, (h.obj 0).cls = .element .modeGroup ∧ (h.obj 1).cls = .member .modeTrans :=
  ⟨run Heap.empty [.new (.element .modeGroup) "G", .new (.member .modeTrans) "t"],
    by decide, by decide⟩

/-! ### C04 -/

/-- C04: `ref()` returns None exactly for detached objects, and a string exactly for
objects whose parent chain ends in a collection. -/
theorem C04_ref_none_iff_detached (h : Heap) (r : Reachable h) (x : Nat)
    (hx : (h.obj x).cls ≠ .collection) :
    (RefReturns h x none ↔ Detached h x) ∧
    (∀ s, RefReturns h x (some s) ↔ ∃ c ns, ParentPath h c ns x ∧ s = absRef ns) := by
  have I := r.inv
  constructor
  · constructor
    · intro hr
      rcases refReturns_cases I hx hr with ⟨_, _, _, e⟩ | ⟨d, _⟩
      · simp at e
      · exact d
    · exact refReturns_of_detached I
  · intro s
    constructor
    · intro hr
      rcases refReturns_cases I hx hr with ⟨c, ns, hp, e⟩ | ⟨_, e⟩
      · injection e with e; exact ⟨c, ns, hp, e⟩
      · simp at e
    · rintro ⟨c, ns, hp, rfl⟩
      exact refReturns_of_path I hp

/-- C04: `ref()` has at most one result. -/
theorem C04_ref_deterministic (h : Heap) (x : Nat) (r r' : Option String)
    (a : RefReturns h x r) (b : RefReturns h x r') : r = r' := refReturns_det a b

/-- C04: two items of one collection with the same reference string are the same
object. -/
theorem C04_refs_distinct (h : Heap) (r : Reachable h) (c x y : Nat) (ns ms : List String)
    (hx : ParentPath h c ns x) (hy : ParentPath h c ms y) (ix : IsItem h x) (iy : IsItem h y)
    (gx : ∀ n ∈ ns, GoodName n) (gy : ∀ n ∈ ms, GoodName n) (s : String)
    (sx : RefReturns h x (some s)) (sy : RefReturns h y (some s)) : x = y := by
  obtain ⟨_, rx, fx⟩ := C03_find_ref h r c x ns hx ix gx
  obtain ⟨_, ry, fy⟩ := C03_find_ref h r c y ms hy iy gy
  have e1 := refReturns_det rx sx
  have e2 := refReturns_det ry sy
  injection e1 with e1; injection e2 with e2
  rw [e1] at fx; rw [e2, fx] at fy
  injection fy with fy; injection fy

example : Detached sampleHeap 6 ∧ RefReturns sampleHeap 6 none :=
  ⟨.here (by decide) (by decide), 0, by decide⟩

example : RefReturns sampleHeap 3 (some "/A/B/T") ∧ RefReturns sampleHeap 5 (some "/A/C/p") :=
  ⟨⟨4, by decide⟩, ⟨4, by decide⟩⟩

/-! ### C05 -/

/-- What a call of `make_packages` may change: existing objects keep class, name,
parent, elements and members; every lookup that did not answer None answers as before;
a lookup that now answers where it answered None names a new package. -/
def OnlyAddsPackages (h h' : Heap) : Prop :=
  h.next ≤ h'.next ∧
  (∀ i, i < h.next → (h'.obj i).cls = (h.obj i).cls ∧ (h'.obj i).name = (h.obj i).name ∧
    (h'.obj i).parent = (h.obj i).parent ∧ (h'.obj i).elements = (h.obj i).elements ∧
    (h'.obj i).slotA = (h.obj i).slotA ∧ (h'.obj i).slotB = (h.obj i).slotB ∧
    (h'.obj i).slotC = (h.obj i).slotC ∧
    ∃ new, (h'.obj i).packages = (h.obj i).packages ++ new ∧ ∀ j ∈ new, h.next ≤ j) ∧
  (∀ i s, i < h.next → find h i s ≠ .ok none → find h' i s = find h i s) ∧
  (∀ i s, i < h.next → find h i s = .ok none → find h' i s = .ok none ∨
    ∃ y, h.next ≤ y ∧ (h'.obj y).cls = .package ∧ find h' i s = .ok (some y))

theorem onlyAdds_of_grow {h h' : Heap} (I : Inv h) (G : Grow h h') : OnlyAddsPackages h h' := by
  refine ⟨G.next, fun i hi => ⟨G.cls i hi, G.name i hi, G.parent i hi, G.elements i hi, G.slotA i hi,
    G.slotB i hi, G.slotC i hi, G.packages i hi⟩, ?_, ?_⟩
  · intro i s hi hne
    rcases findAux_grow I G (s.toList.length + 1) i s.toList (by omega) hi with h1 | ⟨h1, _⟩
    · exact h1
    · exact absurd h1 hne
  · intro i s hi hn
    rcases findAux_grow I G (s.toList.length + 1) i s.toList (by omega) hi with h1 | ⟨_, y, h2, _, h3, h4⟩
    · left; exact h1.trans hn
    · right; exact ⟨y, h2, h3, h4⟩

/-- C05: a successful `collection.make_packages(ref)` returns the package `find(ref)`
returns afterwards, repeating it returns the same package and changes nothing, and
nothing but new packages has been added. -/
theorem C05_collection_make_packages (h : Heap) (r : Reachable h) (c : Nat) (hc : c < h.next)
    (hcc : (h.obj c).cls = .collection) (ref : String) (h' : Heap) (xs : List Nat)
    (hr : collectionMake h c [ref] = (h', .ok xs)) :
    ∃ x, xs = [x] ∧ find h' c ref = .ok (some x) ∧ (h'.obj x).cls = .package ∧
      collectionMake h' c [ref] = (h', .ok [x]) ∧ OnlyAddsPackages h h' := by
  have I := r.inv
  obtain ⟨G, K⟩ := collectionMake1_spec I hc hcc ref.toList
  unfold collectionMake at hr
  cases hq : collectionMake1 h c ref.toList with
  | mk h1 o =>
    rw [hq] at hr G K
    cases o with
    | error e => simp at hr
    | ok x =>
      simp [collectionMake] at hr
      obtain ⟨rfl, rfl⟩ := hr
      obtain ⟨k1, k2, k3⟩ := K x rfl h1 (Grow.refl h1)
      refine ⟨x, rfl, k2, k3, ?_, onlyAdds_of_grow I G⟩
      simp [collectionMake, k1]

/-- C05 for several references in one call: each result is what `find` returns for
its reference after the call. -/
theorem C05_collection_make_many (h : Heap) (r : Reachable h) (c : Nat) (hc : c < h.next)
    (hcc : (h.obj c).cls = .collection) (refs : List String) (h' : Heap) (xs : List Nat)
    (hr : collectionMake h c refs = (h', .ok xs)) :
    refs.map (find h' c) = xs.map (fun x => .ok (some x)) ∧
      collectionMake h' c refs = (h', .ok xs) ∧ OnlyAddsPackages h h' := by
  have main : ∀ (refs : List String) (h : Heap), Inv h → c < h.next → (h.obj c).cls = .collection →
      ∀ h' xs, collectionMake h c refs = (h', .ok xs) →
      Grow h h' ∧ ∀ h2, Grow h' h2 →
        refs.map (find h2 c) = xs.map (fun x => .ok (some x)) ∧
        collectionMake h2 c refs = (h2, .ok xs) := by
    intro refs
    induction refs with
    | nil =>
      intro h I hc hcc h' xs hr
      simp [collectionMake] at hr
      obtain ⟨rfl, rfl⟩ := hr
      exact ⟨Grow.refl h, fun h2 _ => ⟨rfl, rfl⟩⟩
    | cons s ss ih =>
      intro h I hc hcc h' xs hr
      obtain ⟨G, K⟩ := collectionMake1_spec I hc hcc s.toList
      have I1 := inv_collectionMake1 I hc hcc s.toList
      unfold collectionMake at hr
      cases hq : collectionMake1 h c s.toList with
      | mk h1 o =>
        rw [hq] at hr G K I1
        cases o with
        | error e => simp at hr
        | ok x =>
          simp only at hr G K I1
          cases hw : collectionMake h1 c ss with
          | mk h3 o3 =>
            rw [hw] at hr
            cases o3 with
            | error e => simp at hr
            | ok ys =>
              simp at hr
              obtain ⟨rfl, rfl⟩ := hr
              obtain ⟨G2, K2⟩ := ih h1 I1 (by have := G.next; omega)
                (by rw [G.cls c hc]; exact hcc) h3 ys hw
              refine ⟨G.trans G2, ?_⟩
              intro h2 G3
              obtain ⟨k1, k2, _⟩ := K x rfl h2 (G2.trans G3)
              obtain ⟨m1, m2⟩ := K2 h2 G3
              refine ⟨?_, by simp [collectionMake, k1, m2]⟩
              have k2' : find h2 c s = .ok (some x) := k2
              simp [k2', m1]
  obtain ⟨G, K⟩ := main refs h r.inv hc hcc h' xs hr
  obtain ⟨k1, k2⟩ := K h' (Grow.refl h')
  exact ⟨k1, k2, onlyAdds_of_grow r.inv G⟩

/-- C05 for `package.make_packages(ref)`. -/
theorem C05_package_make_packages (h : Heap) (r : Reachable h) (c : Nat) (hc : c < h.next)
    (hcc : (h.obj c).cls = .package) (ref : String) (h' : Heap) (x : Nat)
    (hr : packageMakePackages h c ref = (h', .ok x)) :
    find h' c ref = .ok (some x) ∧ (h'.obj x).cls = .package ∧
      packageMakePackages h' c ref = (h', .ok x) ∧ OnlyAddsPackages h h' := by
  have I := r.inv
  obtain ⟨G, K⟩ := packageMake_spec (ref.toList.length + 1) I hc hcc ref.toList (by omega)
  have Im := inv_packageMake (ref.toList.length + 1) I hc hcc ref.toList
  unfold packageMakePackages at hr ⊢
  rw [hr] at G K Im
  obtain ⟨k1, k2, k3⟩ := K x rfl h' Im (Grow.refl h')
  exact ⟨k2, k3, k1, onlyAdds_of_grow I G⟩

/-- C05, when it succeeds: on a path of usable names `make_packages` fails exactly
when some prefix of the path already is an element (KeyError, nothing changed). -/
theorem C05_make_packages_outcome (h : Heap) (r : Reachable h) (c : Nat) (hc : c < h.next)
    (hcc : (h.obj c).cls = .package) (segs : List String) (hne : segs ≠ [])
    (g : ∀ n ∈ segs, GoodName n) :
    ((∃ pre post e k, segs = pre ++ post ∧ Contains h c pre e ∧ (h.obj e).cls = .element k) ∧
      packageMakePackages h c (relRef segs) = (h, .error .keyError)) ∨
    ((∀ pre post e, segs = pre ++ post → Contains h c pre e → (h.obj e).cls = .package) ∧
      ∃ x, (packageMakePackages h c (relRef segs)).2 = .ok x) :=
  packageMake_rel segs r.inv hc hcc _ hne g (Nat.le_refl _)

/-- Even when `make_packages` raises, it has added packages only (some leading part of
the path may exist afterwards). -/
theorem C05_make_packages_failure_frame (h : Heap) (r : Reachable h) (c : Nat) (hc : c < h.next)
    (hcc : (h.obj c).cls = .collection) (refs : List String) :
    OnlyAddsPackages h (collectionMake h c refs).1 :=
  onlyAdds_of_grow r.inv (collectionMake_spec refs r.inv hc hcc).2

/-- A failing call can leave a partial path behind. -/
theorem C05_failure_not_atomic : ∃ h c, Reachable h ∧ (h.obj c).cls = .collection ∧
    (collectionMake h c ["a//b"]).2 = .error .valueError ∧
    find h c "a" = .ok none ∧ find (collectionMake h c ["a//b"]).1 c "a" = .ok (some 1) :=
  ⟨run Heap.empty [.new .collection ""], 0, ⟨_, rfl⟩, by decide, by decide, by decide, by decide⟩

example : (collectionMake sampleHeap 0 ["/A/B/X/Y", "/Z"]).2 = .ok [8, 9] ∧
    find sampleHeap 0 "/A/B/X" = .ok none ∧
    find (collectionMake sampleHeap 0 ["/A/B/X/Y", "/Z"]).1 0 "/A/B/X" = .ok (some 7) := by decide

example : (packageMakePackages sampleHeap 1 "B/T/U").2 = .error .keyError ∧
    (packageMakePackages sampleHeap 1 "B/V").2 = .ok 7 := by decide

/-! ### C06 -/

/-- C06 is false of the code: `create_package` with a taken name does not raise. -/
theorem C06_duplicate_create_does_not_raise :
    ¬ (∀ (h : Heap) (c : Nat) (n : String), Reachable h → (∃ x, Holds h c x ∧ (h.obj x).name = n) →
        ∃ e, (createPackage h c n).2 = .error e) := by
  intro hall
  obtain ⟨e, he⟩ := hall sampleHeap 0 "A" sample_reachable ⟨1, Or.inl (by decide), by decide⟩
  have : (createPackage sampleHeap 0 "A").2 = .ok (.excValue .valueError) := by decide
  rw [this] at he; simp at he

/-- C06, what holds: with a taken name nothing changes and the value handed back is a
ValueError object, with a free name a new package is created and listed. -/
theorem C06_create_package_partial (h : Heap) (r : Reachable h) (c : Nat) (hc : c < h.next)
    (hcont : IsContainer h c) (n : String) :
    ((∃ x, Holds h c x ∧ (h.obj x).name = n) →
      createPackage h c n = (h, .ok (.excValue .valueError))) ∧
    ((¬ ∃ x, Holds h c x ∧ (h.obj x).name = n) →
      (createPackage h c n).2 = .ok (.obj h.next) ∧
      Holds (createPackage h c n).1 c h.next ∧
      ((createPackage h c n).1.obj h.next).name = n ∧
      ((createPackage h c n).1.obj h.next).cls = .package ∧
      ((createPackage h c n).1.obj h.next).parent = some c) := by
  have I := r.inv
  have hhas : Py.dictHas (h.obj c).map n = true ↔ ∃ x, Holds h c x ∧ (h.obj x).name = n := by
    unfold Py.dictHas
    rw [Option.isSome_iff_exists]
    exact exists_congr (fun x => map_holds I c n x)
  have key : ∀ h', Created h h' c n → Holds h' c h.next ∧ (h'.obj h.next).name = n ∧
      (h'.obj h.next).cls = .package ∧ (h'.obj h.next).parent = some c := by
    intro h' C
    refine ⟨Or.inl ?_, ?_, created_new_cls C, ?_⟩
    · rw [C.packages, alloc_obj_new]; simp
    · rw [C.name, alloc_obj_new]
    · rw [C.parent]; simp
  unfold createPackage
  rcases hcont with hcl | hcl
  · simp only [hcl]
    rcases packageCreate_cases h c n hc with ⟨h1, h2⟩ | ⟨h1, C, h2⟩
    · exact ⟨fun _ => h2, fun hno => absurd (hhas.1 h1) hno⟩
    · refine ⟨fun hyes => ?_, fun _ => ⟨h2, key _ C⟩⟩
      rw [hhas.2 hyes] at h1; simp at h1
  · simp only [hcl]
    rcases collectionCreate_cases h c n hc with ⟨h1, h2⟩ | ⟨h1, C, h2⟩
    · exact ⟨fun _ => h2, fun hno => absurd (hhas.1 h1) hno⟩
    · refine ⟨fun hyes => ?_, fun _ => ⟨h2, key _ C⟩⟩
      rw [hhas.2 hyes] at h1; simp at h1

example : createPackage sampleHeap 1 "T" ≠ (sampleHeap, .ok (.excValue .valueError)) ∧
    (createPackage sampleHeap 1 "C").2 = .ok (.excValue .valueError) ∧
    (createPackage sampleHeap 1 "T").2 = .ok (.obj 7) := by
  refine ⟨?_, by decide, by decide⟩
  intro e
  have := congrArg Prod.snd e
  revert this; decide

/-! ### C07 -/

/-- Every reference string spells exactly one list of names. -/
theorem C07_segmentation (s : String) : ∃ segs, Denotes s.toList segs ∧
    ∀ segs', Denotes s.toList segs' → segs' = segs := by
  obtain ⟨segs, d⟩ := denotes_total _ s.toList (Nat.le_refl _)
  exact ⟨segs, d, fun _ d' => denotes_unique d' d⟩

/-- C07: if descending along the names a string spells leads to item `x`, `find`
returns `x`. -/
theorem C07_find_contained (h : Heap) (r : Reachable h) (c x : Nat) (s : String)
    (segs : List String) (d : Denotes s.toList segs) (hc : Contains h c segs x) :
    find h c s = .ok (some x) := find_of_contains r.inv d hc

/-- C07: `find` never answers with an item that is not at the requested path, and, as
long as the path does not run through an element, answers None when nothing is there. -/
theorem C07_find_exact_partial (h : Heap) (r : Reachable h) (c : Nat) (hcont : IsContainer h c)
    (s : String) (segs : List String) (d : Denotes s.toList segs)
    (hno : ∀ pre post e k, segs = pre ++ post → post ≠ [] → Contains h c pre e →
      (h.obj e).cls ≠ .element k) :
    (∀ x, find h c s = .ok (some x) ↔ Contains h c segs x) ∧
    (find h c s = .ok none ↔ ¬ ∃ x, Contains h c segs x) := by
  rcases find_result r.inv d hcont with ⟨x, h1, h2⟩ | ⟨h1, h2⟩ |
    ⟨pre, post, e, k, rest, h1, h2, h3, h4, _, _, _, _⟩
  · have h2' : find h c s = .ok (some x) := h2
    refine ⟨?_, ?_⟩
    · intro y
      constructor
      · intro hy; rw [h2'] at hy; injection hy with hy; injection hy with hy; rw [← hy]; exact h1
      · intro hy; exact find_of_contains r.inv d hy
    · constructor
      · intro hn; rw [h2'] at hn; simp at hn
      · intro hn; exact absurd ⟨x, h1⟩ hn
  · have h2' : find h c s = .ok none := h2
    refine ⟨?_, ?_⟩
    · intro y
      constructor
      · intro hy; rw [h2'] at hy; simp at hy
      · intro hy; exact absurd ⟨y, hy⟩ h1
    · exact ⟨fun _ => h1, fun _ => h2'⟩
  · exact absurd h4 (hno pre post e k h1 h2 h3)

/-- C07, items through elements: an item (package or element) that `find` returns is
always the one at the requested path. -/
theorem C07_find_item_sound (h : Heap) (r : Reachable h) (c x : Nat) (hcont : IsContainer h c)
    (s : String) (segs : List String) (d : Denotes s.toList segs) (hx : IsItem h x)
    (hf : find h c s = .ok (some x)) : Contains h c segs x := by
  have I := r.inv
  rcases find_result I d hcont with ⟨y, h1, h2⟩ | ⟨h1, h2⟩ |
    ⟨pre, post, e, k, rest, h1, h2, h3, h4, _, _, _, h5⟩
  · have h2' : find h c s = .ok (some y) := h2
    rw [h2'] at hf; injection hf with hf; injection hf with hf; rw [← hf]; exact h1
  · have h2' : find h c s = .ok none := h2
    rw [h2'] at hf; simp at hf
  · exfalso
    have h5' : find h c s = elemFind h e k rest := h5
    rw [h5'] at hf
    have hmem : x ∈ members h e := by
      have fm : ∀ {l n}, firstNamed h l n = some x → x ∈ l := by
        intro l n hh; exact List.mem_of_find?_eq_some hh
      unfold elemFind at hf
      unfold members
      cases k with
      | plain => simp at hf
      | implType =>
        simp only at hf
        split at hf
        · simp at hf
        · injection hf with hf; have := fm hf; simp [this]
      | modeGroup =>
        simp only at hf
        split at hf
        · rename_i i hi; injection hf with hf; injection hf with hf; subst hf; have := fm hi; simp [this]
        · injection hf with hf; have := fm hf; simp [this]
      | swc => simp only at hf; injection hf with hf; have := fm hf; simp [this]
      | composition =>
        simp only at hf
        split at hf
        · rename_i i hi; injection hf with hf; injection hf with hf; subst hf; have := fm hi; simp [this]
        · split at hf
          · rename_i i hi; injection hf with hf; injection hf with hf; subst hf; have := fm hi; simp [this]
          · injection hf with hf; have := fm hf; simp [this]
    obtain ⟨_, k', hk'⟩ := I.members_lt e x hmem
    rcases hx with hx | ⟨k'', hx⟩ <;> rw [hx] at hk' <;> simp at hk'

/-- C07 is false without the restriction: below an element class that has no `find`
the call raises AttributeError instead of answering None; and a software component
answers with its port even when more path follows. -/
theorem C07_below_element_counterexample : ∃ h c, Reachable h ∧ IsContainer h c ∧
    find h c "/A/B/T/zzz" = .error .attributeError ∧ find h c "/A/C/p/zzz" = .ok (some 5) :=
  ⟨sampleHeap, 0, sample_reachable, Or.inr (by decide), by decide, by decide⟩

/-- Below an element, on plain references, `find` is the element's own search on the
remaining path. -/
theorem C07_find_below_element (h : Heap) (r : Reachable h) (c e : Nat) (k : ElemKind)
    (pre post : List String) (hk : (h.obj e).cls = .element k) (hpost : post ≠ [])
    (g : ∀ n ∈ pre ++ post, GoodName n) (hc : Contains h c pre e) :
    find h c (relRef (pre ++ post)) = elemFind h e k (relRef post).toList :=
  find_rel_under_element r.inv hk hpost (fun n hn => g n (by simp [hn])) hc
    (fun n hn => g n (by simp [hn]))

example : Denotes "A//B/T/".toList ["A", "B", "T"] ∧ Contains sampleHeap 0 ["A", "B", "T"] 3 := by
  constructor
  · have h1 : Segment "T".toList "T" := .plain ⟨by decide, by decide⟩
    have h2 : Segment ('/' :: "B".toList) "B" := .slash (by decide)
    have h3 : Segment "A".toList "A" := .plain ⟨by decide, by decide⟩
    exact .more h3 (.more h2 (.trail h1) (by decide)) (by decide)
  · exact .down (p := 1) (by decide) (by decide)
      (.down (p := 2) (by decide) (by decide) (.here (Or.inr (by decide)) (by decide)))

example : find sampleHeap 0 "A//B/T/" = .ok (some 3) ∧ find sampleHeap 0 "//A" = .ok none ∧
    find sampleHeap 0 "A/X/Y" = .ok none := by decide

end Verif.Props.Pkg
