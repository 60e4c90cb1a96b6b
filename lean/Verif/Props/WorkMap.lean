import Verif.Work.PkgMapLemmas
import Verif.Props.Pkg
/-
Property theorems C58: the package map of a workspace.  `mrun MapWs.fresh ops` is a workspace after
any history of calls: those of C01 - C07 on any objects, `create_package_map` and `add_element`
(including rejected ones).
-/
set_option linter.unusedVariables false

namespace Verif.Props.WorkMap
open Verif Verif.Py Verif.Pkg Verif.Pkg.Spec Verif.Work

/-- The state after a history in which `create_package_map(mapping)` succeeded and was not called
again. -/
structure InForce (mapping : List (String × String)) (w : MapWs) : Prop where
  /-- before, the call, after -/
  history : ∃ ops1 ops2, w = mrun (mrun MapWs.fresh ops1) (.createMap mapping :: ops2) ∧
    (createPackageMap (mrun MapWs.fresh ops1) mapping).2 = .ok () ∧
    ∀ m, MapOp.createMap m ∉ ops2
  /-- a dictionary has each key once -/
  keys : (mapping.map (·.1)).Nodup

theorem ops_noCreate {ops : List MapOp} (h : ∀ m, MapOp.createMap m ∉ ops) :
    ∀ o ∈ ops, isCreate o = false := by
  intro o ho
  cases o with
  | pkg _ => rfl
  | add _ _ => rfl
  | createMap m => exact absurd ho (h m)

theorem mapOk_inForce {m : List (String × String)} {w : MapWs} (F : InForce m w) : MapOk w := by
  obtain ⟨o1, o2, rfl, _, _⟩ := F.history
  exact (mapOk_run _ (mapOk_run _ mapOk_fresh).1).1

theorem contains_of_at {h : Heap} (I : Pkg.Inv h) {root p : Nat} {ref : String} {segs : List String}
    (hroot : (h.obj root).cls = .collection) (d : Denotes ref.toList segs) (a : At h root ref p) :
    Contains h root segs p := by
  rcases find_result I d (Or.inr hroot) with ⟨x, h1, h2⟩ | ⟨_, h2⟩ | ⟨pre, post, e, k, rest, h1, h2, h3, h4, h5, h6, h7, h8⟩
  · rw [a.1] at h2; injection h2 with h2; injection h2 with h2; rw [h2]; exact h1
  · rw [a.1] at h2; simp at h2
  · exfalso
    rw [a.1] at h8
    have hmem : p ∈ members h e := elemFind_mem h8.symm
    obtain ⟨_, k', hk'⟩ := I.members_lt e p hmem
    rw [a.2] at hk'; simp at hk'

/-- The package a key leads to, for good. -/
theorem key_place {m : List (String × String)} {w : MapWs} (F : InForce m w) {k ref : String}
    (hk : (k, ref) ∈ m) {segs : List String} (d : Denotes ref.toList segs) :
    ∃ p, dictGet w.map k = some p ∧ (w.heap.obj p).cls = .package ∧ Contains w.heap w.root segs p ∧
      p < w.heap.next := by
  obtain ⟨o1, o2, rfl, hok, hno⟩ := F.history
  have W1 := (mapOk_run o1 mapOk_fresh).1
  generalize mrun MapWs.fresh o1 = w1 at W1 hok
  have Fi := fill_spec m { w1 with map := [] } ⟨W1.inv, W1.root_lt, W1.root_cls⟩
  obtain ⟨p, hp, ha⟩ := Fi.gives hok F.keys k ref hk
  have Wi := Fi.ok
  have hrun : mrun w1 (.createMap m :: o2) = mrun (fillPackageMap { w1 with map := [] } m).1 o2 := rfl
  rw [hrun]
  generalize (fillPackageMap { w1 with map := [] } m).1 = w2 at Wi hp ha
  obtain ⟨W3, hr, K⟩ := mapOk_run o2 Wi
  have hpl := at_lt Wi.inv Wi.root_cls ha
  refine ⟨p, by rw [map_run o2 w2 (ops_noCreate hno)]; exact hp, by rw [K.cls p hpl]; exact ha.2, ?_,
    Nat.lt_of_lt_of_le hpl K.next⟩
  rw [hr]
  exact contains_keep Wi.inv W3.inv K Wi.root_lt (contains_of_at Wi.inv Wi.root_cls d ha)

/-- C58: at any time after a successful `create_package_map`, `get_package(key)` returns the package
at the path given for the key, the one `find(path)` returns. -/
theorem C58_get (mapping : List (String × String)) (w : MapWs) (F : InForce mapping w) (key path : String)
    (hk : (key, path) ∈ mapping) (names : List String) (d : Denotes path.toList names) :
    ∃ p, getPackage w key = .ok p ∧ (w.heap.obj p).cls = .package ∧ Contains w.heap w.root names p ∧
      find w.heap w.root path = .ok (some p) := by
  obtain ⟨p, h1, h2, h3, h4⟩ := key_place F hk d
  exact ⟨p, getPackage_ok.2 h1, h2, h3, find_of_contains (mapOk_inForce F).inv d h3⟩

/-- C58: other keys are refused by all three methods and nothing changes: KeyError, or RuntimeError
if there are no keys at all. -/
theorem C58_unknown (mapping : List (String × String)) (w : MapWs) (F : InForce mapping w) (key : String)
    (hk : ∀ path, (key, path) ∉ mapping) (x : Nat) (name : String) :
    ∃ e, e = (if mapping = [] then PyErr.runtimeError else .keyError) ∧ getPackage w key = .error e ∧
      findElement w key name = .error e ∧ addElement w key x = (w, .error e) := by
  have hmap : dictGet w.map key = none ∧ (w.map.length = 0 ↔ mapping = []) := by
    constructor
    · obtain ⟨o1, o2, rfl, hok, hno⟩ := F.history
      have W1 := (mapOk_run o1 mapOk_fresh).1
      generalize mrun MapWs.fresh o1 = w1 at W1 hok
      have Fi := fill_spec mapping { w1 with map := [] } ⟨W1.inv, W1.root_lt, W1.root_cls⟩
      have hrun : mrun w1 (.createMap mapping :: o2) = mrun (fillPackageMap { w1 with map := [] } mapping).1 o2 := rfl
      rw [hrun, map_run o2 _ (ops_noCreate hno), Fi.others key (by
        intro hm
        obtain ⟨⟨a, b⟩, hab, rfl⟩ := List.mem_map.1 hm
        exact hk b hab)]
      rfl
    · constructor
      · intro h0
        cases mapping with
        | nil => rfl
        | cons a l =>
          exfalso
          obtain ⟨k, r⟩ := a
          obtain ⟨segs, d⟩ := denotes_total _ r.toList (Nat.le_refl _)
          obtain ⟨p, hp, _⟩ := key_place F (k := k) (ref := r) (by simp) d
          exact dict_nonempty hp h0
      · rintro rfl
        obtain ⟨o1, o2, rfl, hok, hno⟩ := F.history
        have hrun : mrun (mrun MapWs.fresh o1) (.createMap [] :: o2) =
          mrun { mrun MapWs.fresh o1 with map := [] } o2 := rfl
        rw [hrun, map_run o2 _ (ops_noCreate hno)]; rfl
  refine ⟨_, rfl, ?_⟩
  unfold getPackage findElement addElement
  by_cases h0 : mapping = []
  · rw [if_pos (hmap.2.2 h0), if_pos (hmap.2.2 h0), if_pos (hmap.2.2 h0), if_pos h0]
    exact ⟨rfl, rfl, rfl⟩
  · have h1 : ¬ w.map.length = 0 := fun h => h0 (hmap.2.1 h)
    rw [if_neg h1, if_neg h1, if_neg h1, if_neg h0, hmap.1]
    exact ⟨rfl, rfl, rfl⟩

/-- C58: `add_element(key, x)` puts `x` into the package at the key's path if `x` is an element or a
package and no other item there has its name; it then is found under the key and, from the
workspace, at the path extended by its name, at any later time.  Otherwise it raises and nothing
changes. -/
theorem C58_add (mapping : List (String × String)) (w : MapWs) (F : InForce mapping w) (key path : String)
    (hk : (key, path) ∈ mapping) (names : List String) (d : Denotes path.toList names)
    (p : Nat) (hp : Contains w.heap w.root names p) (x : Nat) (hx : x < w.heap.next) :
    (IsItem w.heap x → (∀ y, Holds w.heap p y → (w.heap.obj y).name ≠ (w.heap.obj x).name) →
      (addElement w key x).2 = .ok () ∧
      ∀ later, (∀ m, MapOp.createMap m ∉ later) → ∀ w', w' = mrun (addElement w key x).1 later →
        Holds w'.heap p x ∧ Contains w'.heap w'.root (names ++ [(w.heap.obj x).name]) x ∧
        (GoodName (w.heap.obj x).name → findElement w' key (w.heap.obj x).name = .ok (some x))) ∧
    (¬ IsItem w.heap x ∨ (∃ y, Holds w.heap p y ∧ (w.heap.obj y).name = (w.heap.obj x).name) →
      ∃ e, addElement w key x = (w, .error e)) := by
  have W := mapOk_inForce F
  obtain ⟨q, hq1, hq2, hq3, hq4⟩ := key_place F hk d
  have hpq : p = q := by
    have a := find_of_contains W.inv d hp
    have b := find_of_contains W.inv d hq3
    rw [a] at b; injection b with b; injection b
  subst hpq
  have hadd : addElement w key x = ({ w with heap := (append w.heap p x).1 }, (append w.heap p x).2) := by
    unfold addElement; rw [if_neg (dict_nonempty hq1), hq1]
  have happ : append w.heap p x = packageAppend w.heap p x := by simp [append, hq2]
  have free_iff : dictHas (w.heap.obj p).map (w.heap.obj x).name = false ↔
      ∀ y, Holds w.heap p y → (w.heap.obj y).name ≠ (w.heap.obj x).name := by
    constructor
    · intro h0 y hy hn
      have := (map_holds W.inv p (w.heap.obj x).name y).2 ⟨hy, hn⟩
      simp [dictHas, this] at h0
    · intro h0
      cases hg : dictGet (w.heap.obj p).map (w.heap.obj x).name with
      | none => simp [dictHas, hg]
      | some y =>
        obtain ⟨a, b⟩ := (map_holds W.inv p _ y).1 hg
        exact absurd b (h0 y a)
  constructor
  · intro hitem hfree
    have hd := free_iff.2 hfree
    have hok : (packageAppend w.heap p x).2 = .ok () := by
      rcases hitem with h1 | ⟨k, h1⟩ <;> simp [packageAppend, h1, hd]
    rcases packageAppend_cases w.heap p x with ⟨_, e, h2⟩ | ⟨A, _, _, _⟩
    · rw [hok] at h2; simp at h2
    have I2 : Pkg.Inv (append w.heap p x).1 := inv_append W.inv hq4 hx
    rw [hadd]
    refine ⟨by rw [happ]; exact hok, ?_⟩
    intro later hno w' hw'
    have W2 : MapOk { w with heap := (append w.heap p x).1 } := by
      have K := keep_append w.heap p x
      exact ⟨I2, Nat.lt_of_lt_of_le W.root_lt K.next, by rw [K.cls _ W.root_lt]; exact W.root_cls⟩
    obtain ⟨W3, hr, K⟩ := mapOk_run later W2
    rw [← hw'] at W3 hr K
    have K0 := keep_append w.heap p x
    have hh : Holds (append w.heap p x).1 p x := by
      rw [happ]
      unfold Holds
      rw [A.packages, A.elements]
      by_cases hc : (w.heap.obj x).cls = .package <;> simp [hc]
    have hpl : p < (append w.heap p x).1.next := Nat.lt_of_lt_of_le hq4 K0.next
    have hh' := holds_keep W2.inv W3.inv K hpl hh
    have hname : (w'.heap.obj x).name = (w.heap.obj x).name := by
      rw [K.name x (item_lt W2.inv hh), K0.name x hx]
    have hcls : (w'.heap.obj p).cls = .package := by rw [K.cls p hpl, K0.cls p hq4]; exact hq2
    have hcon : Contains w'.heap w'.root names p := by
      rw [hr]
      exact contains_keep W2.inv W3.inv K W2.root_lt (contains_keep W.inv I2 K0 W.root_lt hp)
    refine ⟨hh', ?_, ?_⟩
    · rw [← hname]; exact contains_snoc W3.inv hcon hcls hh'
    · intro g
      have hm : w'.map = w.map := by rw [hw', map_run later _ (ops_noCreate hno)]
      unfold findElement
      rw [hm, if_neg (dict_nonempty hq1), hq1]
      rw [← hname] at g ⊢
      exact find_of_contains W3.inv (.last (.plain g)) (.here hh' rfl)
  · intro hbad
    rw [hadd, happ]
    rcases packageAppend_cases w.heap p x with ⟨h1, e, h2⟩ | ⟨_, _, h3, h4⟩
    · exact ⟨e, by rw [h1, h2]⟩
    · exfalso
      rcases hbad with h5 | ⟨y, h5, h6⟩
      · exact h5 ((isItem_iff _ _).2 h3)
      · exact free_iff.1 h4 y h5 h6

/-- C58: `find_element(key, name)` answers what `find` answers from the workspace for the path of the
key followed by the name (which may itself be a path). -/
theorem C58_find (mapping : List (String × String)) (w : MapWs) (F : InForce mapping w) (key : String)
    (names : List String) (hne : names ≠ []) (g : ∀ n ∈ names, GoodName n)
    (hk : (key, absRef names) ∈ mapping ∨ (key, relRef names) ∈ mapping) (name : String) (hn : name ≠ "") :
    findElement w key name = find w.heap w.root (absRef names ++ "/" ++ name) ∧
    findElement w key name = find w.heap w.root (relRef names ++ "/" ++ name) := by
  have W := mapOk_inForce F
  have : ∃ p, dictGet w.map key = some p ∧ (w.heap.obj p).cls = .package ∧ Contains w.heap w.root names p ∧
      p < w.heap.next := by
    rcases hk with hk | hk
    · exact key_place F hk (absRef_denotes names hne g)
    · exact key_place F hk (relRef_denotes names hne g)
  obtain ⟨p, h1, h2, h3, h4⟩ := this
  have hf : findElement w key name = find w.heap p name := by
    unfold findElement; rw [if_neg (dict_nonempty h1), h1]
  have hrel := find_below W.inv h2 name hn h3 g
  refine ⟨?_, by rw [hf, hrel]⟩
  rw [hf, ← hrel]
  cases names with
  | nil => exact absurd rfl hne
  | cons n ns =>
    rw [absRef_eq_slash_rel]
    unfold find
    have e : ("/" ++ relRef (n :: ns) ++ "/" ++ name).toList = '/' :: (relRef (n :: ns) ++ "/" ++ name).toList := by
      simp
    rw [e, findAux_slash (Or.inr W.root_cls)]
    have := startsWith_good (g n (by simp)) ((absRef ns).toList ++ '/' :: name.toList)
    simpa [relRef] using this

/-- C58: keys with the same path have the same package. -/
theorem C58_same (mapping : List (String × String)) (w : MapWs) (F : InForce mapping w)
    (key key' path path' : String) (hk : (key, path) ∈ mapping) (hk' : (key', path') ∈ mapping)
    (names : List String) (d : Denotes path.toList names) (d' : Denotes path'.toList names) :
    getPackage w key = getPackage w key' := by
  have W := mapOk_inForce F
  obtain ⟨p, h1, h2, h3, _⟩ := key_place F hk d
  obtain ⟨q, h1', h2', h3', _⟩ := key_place F hk' d'
  have : p = q := by
    have a := find_of_contains W.inv d h3
    have b := find_of_contains W.inv d h3'
    rw [a] at b; injection b with b; injection b
  subst this
  rw [getPackage_ok.2 h1, getPackage_ok.2 h1']

/-- C58: keys with different paths have different packages, unless the program has listed a package
outside its parent before the map was created. -/
theorem C58_apart (before later : List MapOp) (mapping : List (String × String))
    (hok : (createPackageMap (mrun MapWs.fresh before) mapping).2 = .ok ())
    (hno : ∀ m, MapOp.createMap m ∉ later) (hkeys : (mapping.map (·.1)).Nodup)
    (hone : ∀ c x, x ∈ ((mrun MapWs.fresh before).heap.obj c).packages →
      ((mrun MapWs.fresh before).heap.obj x).parent = some c)
    (key key' path path' : String) (hk : (key, path) ∈ mapping) (hk' : (key', path') ∈ mapping)
    (names names' : List String) (d : Denotes path.toList names) (d' : Denotes path'.toList names')
    (hne : names ≠ names') (w : MapWs) (hw : w = mrun (mrun MapWs.fresh before) (.createMap mapping :: later)) :
    getPackage w key ≠ getPackage w key' := by
  subst hw
  have W1 := (mapOk_run before mapOk_fresh).1
  have O : OnePlace (mrun MapWs.fresh before).heap := hone
  generalize mrun MapWs.fresh before = w1 at W1 hok O
  have W1' : MapOk { w1 with map := [] } := ⟨W1.inv, W1.root_lt, W1.root_cls⟩
  have Fi := fill_spec mapping _ W1'
  have Oi := onePlace_fill mapping _ W1' O
  obtain ⟨p, hp, ha⟩ := Fi.gives hok hkeys key path hk
  obtain ⟨q, hq, hb⟩ := Fi.gives hok hkeys key' path' hk'
  have Wi := Fi.ok
  have hrun : mrun w1 (.createMap mapping :: later) = mrun (fillPackageMap { w1 with map := [] } mapping).1 later := rfl
  rw [hrun]
  generalize (fillPackageMap { w1 with map := [] } mapping).1 = w2 at Wi hp ha hq hb Oi
  have hm := map_run later w2 (ops_noCreate hno)
  rw [getPackage_ok.2 (by rw [hm]; exact hp), getPackage_ok.2 (by rw [hm]; exact hq)]
  intro e
  injection e with e
  subst e
  have c1 := contains_of_at Wi.inv Wi.root_cls d ha
  have c2 := contains_of_at Wi.inv Wi.root_cls d' hb
  have p1 := (path_of_contains Oi Wi.root_cls Wi.inv ha.2 c1).1 rfl
  have p2 := (path_of_contains Oi Wi.root_cls Wi.inv ha.2 c2).1 rfl
  exact hne (parentPath_one Wi.inv p1 p2)

/-- C58, whatever the outcome of `create_package_map`: only packages have been added, and a key that
answers afterwards is one of the mapping and answers with the package at its path (no key of an
earlier map is left). -/
theorem C58_failure (ops : List MapOp) (mapping : List (String × String)) (w' : MapWs) (r : Except PyErr Unit)
    (h : createPackageMap (mrun MapWs.fresh ops) mapping = (w', r)) :
    Verif.Props.Pkg.OnlyAddsPackages (mrun MapWs.fresh ops).heap w'.heap ∧
    ∀ key p, getPackage w' key = .ok p → ∃ path, (key, path) ∈ mapping ∧
      ∀ names, Denotes path.toList names → Contains w'.heap w'.root names p := by
  have W1 := (mapOk_run ops mapOk_fresh).1
  generalize mrun MapWs.fresh ops = w1 at W1 h
  have Fi := fill_spec mapping { w1 with map := [] } ⟨W1.inv, W1.root_lt, W1.root_cls⟩
  unfold createPackageMap at h
  rw [h] at Fi
  refine ⟨Verif.Props.Pkg.onlyAdds_of_grow W1.inv Fi.grow, ?_⟩
  intro key p hp
  rcases Fi.only key p (getPackage_ok.1 hp) with h1 | ⟨path, h1, h2⟩
  · simp [dictGet] at h1
  · exact ⟨path, h1, fun names d => contains_of_at Fi.ok.inv Fi.ok.root_cls d h2⟩

/-! A workspace with two keys; an element is added under one of them and looked up. -/

def sampleMap : List (String × String) := [("types", "/Types/Impl"), ("ports", "Ports")]

def sampleOps : List MapOp :=
  [.createMap sampleMap, .pkg (.new (.element .plain) "T"), .add "types" 4, .add "ports" 9]

def sampleWs : MapWs := mrun MapWs.fresh sampleOps

example : InForce sampleMap sampleWs :=
  ⟨⟨[], _, rfl, by decide, by simp⟩, by decide⟩

example : getPackage sampleWs "types" = .ok 2 ∧ getPackage sampleWs "ports" = .ok 3 ∧
    findElement sampleWs "types" "T" = .ok (some 4) ∧
    find sampleWs.heap 0 "/Types/Impl/T" = .ok (some 4) ∧ findElement sampleWs "ports" "T" = .ok none ∧
    getPackage sampleWs "Types" = .error .keyError ∧ getPackage MapWs.fresh "types" = .error .runtimeError := by
  decide

example : ∀ c x, x ∈ ((mrun MapWs.fresh []).heap.obj c).packages →
    ((mrun MapWs.fresh []).heap.obj x).parent = some c := by
  intro c x hx
  have : ((mrun MapWs.fresh []).heap.obj c).packages = [] := by
    simp only [mrun, List.foldl_nil, MapWs.fresh, Heap.alloc, Heap.empty]
    by_cases h0 : c = 0 <;> simp [h0, Obj.blank]
  rw [this] at hx; simp at hx

/-- C58, what is lost: a `create_package_map` that raises leaves the workspace without its former
keys, and one with an empty mapping leaves it as if never called. -/
theorem C58_finding :
    (∃ w', createPackageMap sampleWs [("other", "/New"), ("types", "/Types//Impl")] = (w', .error .valueError) ∧
      getPackage sampleWs "types" = .ok 2 ∧ getPackage w' "types" = .error .keyError ∧
      getPackage w' "other" = .ok 5) ∧
    (∃ w', createPackageMap sampleWs [] = (w', .ok ()) ∧ getPackage w' "types" = .error .runtimeError) := by
  refine ⟨⟨(createPackageMap sampleWs [("other", "/New"), ("types", "/Types//Impl")]).1,
    Prod.ext rfl (by decide), by decide, by decide, by decide⟩, ⟨_, rfl, by decide⟩⟩

end Verif.Props.WorkMap
