import Verif.Work.PkgMap
import Verif.Work.TemplateLemmas
import Verif.Pkg.More
/-
Facts about the package map.
-/
set_option linter.unusedVariables false
namespace Verif.Work
open Verif.Py Verif.Pkg Verif.Pkg.Spec

/-- What holds of a workspace after any history. -/
structure MapOk (w : MapWs) : Prop where
  inv : Inv w.heap
  root_lt : w.root < w.heap.next
  root_cls : (w.heap.obj w.root).cls = .collection

theorem mapOk_fresh : MapOk MapWs.fresh where
  inv := inv_alloc inv_empty _ _
  root_lt := by decide
  root_cls := by decide

/-- What a key leads to. -/
def At (h : Heap) (root : Nat) (ref : String) (p : Nat) : Prop :=
  findAux (ref.toList.length + 1) h root ref.toList = .ok (some p) ∧ (h.obj p).cls = .package

/-! ### Nothing disappears -/

theorem holds_keep {h h' : Heap} (I : Inv h) (I' : Inv h') (K : Keep h h') {c x : Nat}
    (hc : c < h.next) (hx : Holds h c x) : Holds h' c x := by
  have := (map_holds I c (h.obj x).name x).2 ⟨hx, rfl⟩
  exact ((map_holds I' c (h.obj x).name x).1 (K.map c hc _ _ this)).1

theorem item_lt {h : Heap} (I : Inv h) {c x : Nat} (hx : Holds h c x) : x < h.next := by
  rcases hx with hx | hx
  · exact (I.pkgs_cls c x hx).1
  · exact (I.elems_cls c x hx).1

theorem contains_keep {h h' : Heap} (I : Inv h) (I' : Inv h') (K : Keep h h') {c x : Nat}
    {ns : List String} (hc : c < h.next) (hx : Contains h c ns x) : Contains h' c ns x := by
  induction hx with
  | here h1 h2 => exact .here (holds_keep I I' K hc h1) (by rw [K.name _ (item_lt I h1)]; exact h2)
  | down h1 h2 _ ih =>
    have hl := item_lt I (Or.inl h1)
    have hh := holds_keep I I' K hc (Or.inl h1)
    refine .down (holds_pkg I' hh ?_) (by rw [K.name _ hl]; exact h2) (ih hl)
    rw [K.cls _ hl]; exact (I.pkgs_cls _ _ h1).2

/-! ### The loop -/

theorem at_grow {h h' : Heap} {root : Nat} (I : Inv h) (G : Grow h h') (hr : root < h.next)
    (hc : (h.obj root).cls = .collection) {ref : String} {p : Nat} (hp : p < h.next)
    (a : At h root ref p) : At h' root ref p := by
  refine ⟨?_, by rw [G.cls p hp]; exact a.2⟩
  rcases findAux_grow I G (ref.toList.length + 1) root ref.toList (by omega) hr with h1 | ⟨h1, _⟩
  · rw [h1]; exact a.1
  · rw [a.1] at h1; simp at h1

theorem at_lt {h : Heap} (I : Inv h) {root : Nat} {ref : String} {p : Nat}
    (hc : (h.obj root).cls = .collection) (a : At h root ref p) : p < h.next := by
  obtain ⟨segs, d⟩ := denotes_total _ ref.toList (Nat.le_refl _)
  rcases Nat.lt_or_ge p h.next with h1 | h1
  · exact h1
  · have := I.fresh p h1
    have := a.2
    rw [I.fresh p h1] at this
    simp [Obj.blank] at this

structure MapFilled (w w' : MapWs) (l : List (String × String)) (r : Except PyErr Unit) : Prop where
  ok : MapOk w'
  root : w'.root = w.root
  grow : Grow w.heap w'.heap
  gives : r = .ok () → (l.map (·.1)).Nodup → ∀ k ref, (k, ref) ∈ l →
    ∃ p, dictGet w'.map k = some p ∧ At w'.heap w'.root ref p
  others : ∀ k, k ∉ l.map (·.1) → dictGet w'.map k = dictGet w.map k
  only : ∀ k p, dictGet w'.map k = some p → dictGet w.map k = some p ∨
    ∃ ref, (k, ref) ∈ l ∧ At w'.heap w'.root ref p

theorem fill_spec : ∀ (l : List (String × String)) (w : MapWs), MapOk w →
    MapFilled w (fillPackageMap w l).1 l (fillPackageMap w l).2
  | [], w, W => ⟨W, rfl, Grow.refl _, by simp, by simp [fillPackageMap], fun k p h => Or.inl h⟩
  | (key, ref) :: rest, w, W => by
    obtain ⟨G, K⟩ := collectionMake1_spec W.inv W.root_lt W.root_cls ref.toList
    have I1 := inv_collectionMake1 W.inv W.root_lt W.root_cls ref.toList
    unfold fillPackageMap
    cases hq : collectionMake1 w.heap w.root ref.toList with
    | mk h1 o =>
      rw [hq] at G K I1
      cases o with
      | error e =>
        refine ⟨⟨I1, Nat.lt_of_lt_of_le W.root_lt G.next, by rw [G.cls _ W.root_lt]; exact W.root_cls⟩,
          rfl, G, by simp, by simp, fun k p h => Or.inl h⟩
      | ok p =>
        have hroot : (h1.obj w.root).cls = .collection := by rw [G.cls _ W.root_lt]; exact W.root_cls
        have W1 : MapOk { w with heap := h1, map := dictSet w.map key p } :=
          ⟨I1, Nat.lt_of_lt_of_le W.root_lt G.next, hroot⟩
        have F := fill_spec rest _ W1
        have hat : At h1 w.root ref p := by
          obtain ⟨_, a, b⟩ := K p rfl h1 (Grow.refl _)
          exact ⟨a, b⟩
        have hat' := at_grow I1 F.grow W1.root_lt hroot (at_lt I1 hroot hat) hat
        refine ⟨F.ok, F.root, G.trans F.grow, ?_, ?_, ?_⟩
        · intro hr hn k r hm
          simp only [List.map_cons, List.nodup_cons] at hn
          rcases List.mem_cons.1 hm with he | hm
          · injection he with e1 e2; subst e1; subst e2
            refine ⟨p, ?_, ?_⟩
            · rw [F.others _ hn.1]; simp [dictGet_set]
            · have := F.root; simp only at this; rw [this]; exact hat'
          · exact F.gives hr hn.2 k r hm
        · intro k hk
          simp only [List.map_cons, List.mem_cons, not_or] at hk
          rw [F.others k hk.2, dictGet_set, if_neg (fun e => hk.1 e.symm)]
        · intro k q hq'
          rcases F.only k q hq' with h2 | ⟨r, h2, h3⟩
          · rw [dictGet_set] at h2
            split at h2
            · rename_i e; subst e
              injection h2 with h2; subst h2
              refine Or.inr ⟨ref, by simp, ?_⟩
              have := F.root; simp only at this; rw [this]; exact hat'
            · exact Or.inl h2
          · exact Or.inr ⟨r, by simp [h2], h3⟩

/-! ### Histories -/

theorem mapOk_step {w : MapWs} (W : MapOk w) (o : MapOp) :
    MapOk (mstep w o) ∧ (mstep w o).root = w.root ∧ Keep w.heap (mstep w o).heap := by
  have key : ∀ h', Pkg.Inv h' → Keep w.heap h' → ∀ m, MapOk ⟨h', w.root, m⟩ := fun h' I K m =>
    ⟨I, Nat.lt_of_lt_of_le W.root_lt K.next, by rw [K.cls _ W.root_lt]; exact W.root_cls⟩
  cases o with
  | pkg o => exact ⟨key _ (inv_step W.inv o) (keep_step W.inv o) _, rfl, keep_step W.inv o⟩
  | createMap m =>
    have F := fill_spec m { w with map := [] } ⟨W.inv, W.root_lt, W.root_cls⟩
    exact ⟨F.ok, F.root, keep_grow F.grow⟩
  | add k x =>
    simp only [mstep]
    split
    · rename_i hx
      unfold addElement
      split
      · exact ⟨W, rfl, Keep.refl _⟩
      · split
        · exact ⟨W, rfl, Keep.refl _⟩
        · rename_i p hp
          rcases Nat.lt_or_ge p w.heap.next with hl | hl
          · exact ⟨key _ (inv_append W.inv hl hx) (keep_append _ _ _) _, rfl, keep_append _ _ _⟩
          · have : append w.heap p x = (w.heap, .error .attributeError) := by
              simp [append, W.inv.fresh p hl, Obj.blank]
            rw [this]; exact ⟨W, rfl, Keep.refl _⟩
    · exact ⟨W, rfl, Keep.refl _⟩

theorem mapOk_run : ∀ (ops : List MapOp) {w : MapWs}, MapOk w →
    MapOk (mrun w ops) ∧ (mrun w ops).root = w.root ∧ Keep w.heap (mrun w ops).heap
  | [], w, W => ⟨W, rfl, Keep.refl _⟩
  | o :: ops, w, W => by
    obtain ⟨a, b, c⟩ := mapOk_step W o
    obtain ⟨d, e, f⟩ := mapOk_run ops a
    exact ⟨d, e.trans b, c.trans f⟩

/-- The call replaces the package map. -/
def isCreate : MapOp → Bool
  | .createMap _ => true
  | _ => false

theorem map_step (w : MapWs) {o : MapOp} (h : isCreate o = false) : (mstep w o).map = w.map := by
  cases o with
  | pkg o => rfl
  | createMap m => simp [isCreate] at h
  | add k x =>
    simp only [mstep, addElement]
    split
    · split
      · rfl
      · split <;> rfl
    · rfl

theorem map_run : ∀ (ops : List MapOp) (w : MapWs), (∀ o ∈ ops, isCreate o = false) →
    (mrun w ops).map = w.map
  | [], w, _ => rfl
  | o :: ops, w, h => by
    have := map_run ops (mstep w o) (fun o' ho => h o' (by simp [ho]))
    rw [map_step w (h o (by simp))] at this
    exact this

theorem mrun_append (w : MapWs) (a b : List MapOp) : mrun w (a ++ b) = mrun (mrun w a) b := by
  simp [mrun]

theorem dict_nonempty {α : Type} {d : Dict α} {k : String} {v : α} (h : dictGet d k = some v) :
    d.length ≠ 0 := by
  cases d with
  | nil => simp [dictGet] at h
  | cons a l => simp

theorem getPackage_ok {w : MapWs} {k : String} {p : Nat} : getPackage w k = .ok p ↔ dictGet w.map k = some p := by
  unfold getPackage
  constructor
  · intro h
    split at h
    · simp at h
    · split at h
      · simp at h
      · rename_i q hq; injection h with h; rw [hq, h]
  · intro h
    rw [if_neg (dict_nonempty h), h]

/-! ### Looking up below a package -/

theorem find_below {h : Heap} (I : Inv h) {p : Nat} (hp : (h.obj p).cls = .package) (s : String) (hs : s ≠ "") :
    ∀ {pre : List String} {c : Nat}, Contains h c pre p → (∀ n ∈ pre, GoodName n) →
    find h c (relRef pre ++ "/" ++ s) = find h p s := by
  have hs' : s.toList ≠ [] := by
    intro e; apply hs
    have := congrArg String.ofList e; simpa using this
  intro pre
  induction pre with
  | nil => intro c hc; exact absurd rfl (contains_ne_nil hc)
  | cons n ns ih =>
    intro c hc g
    have gn := g n (by simp)
    have hcc := contains_container I hc
    rw [isContainer_iff] at hcc
    have step : ∀ (t : String), t.toList ≠ [] → find h c (n ++ "/" ++ t) =
        match dictGet (h.obj c).map n with
        | none => .ok none
        | some x => find h x t := by
      intro t ht
      unfold find
      rw [find_unfold h c _ hcc]
      have e1 : (n ++ "/" ++ t).toList = n.toList ++ '/' :: t.toList := by simp
      have e2 : stripLead '/' (n ++ "/" ++ t).toList = n.toList ++ '/' :: t.toList := by
        rw [e1, stripLead_of_not _ _ (startsWith_good gn _)]
      rw [e2, partL_append _ _ _ gn.2]
      simp only [String.ofList_toList]
      cases hg : dictGet (h.obj c).map n with
      | none => simp
      | some x => simp only [ht, ne_eq, not_false_eq_true, if_true]
    cases hc with
    | here h1 h2 =>
      have : relRef [n] ++ "/" ++ s = n ++ "/" ++ s := by simp [relRef, absRef]
      rw [this, step s hs', (map_holds I c n p).2 ⟨h1, h2⟩]
    | down h1 h2 h3 =>
      rename_i q
      cases ns with
      | nil => exact absurd rfl (contains_ne_nil h3)
      | cons m ms =>
        have : relRef (n :: m :: ms) ++ "/" ++ s = n ++ "/" ++ (relRef (m :: ms) ++ "/" ++ s) := by
          rw [relRef, absRef_eq_slash_rel]; simp [String.append_assoc]
        rw [this, step _ (by simp), (map_holds I c n q).2 ⟨Or.inl h1, h2⟩]
        exact ih h3 (fun k hk => g k (by simp [hk]))

theorem elemFind_mem {h : Heap} {e x : Nat} {k : ElemKind} {s : List Char}
    (hf : elemFind h e k s = .ok (some x)) : x ∈ members h e := by
  have fm : ∀ {l n}, firstNamed h l n = some x → x ∈ l := by
    intro l n hh; exact List.mem_of_find?_eq_some hh
  unfold elemFind at hf
  unfold members
  cases k with
  | plain => simp at hf
  | implType =>
    simp only at hf
    split at hf
    · simp at hf
    · injection hf with hf; have := fm hf; simp [this]
  | modeGroup =>
    simp only at hf
    split at hf
    · rename_i i hi; injection hf with hf; injection hf with hf; subst hf; have := fm hi; simp [this]
    · injection hf with hf; have := fm hf; simp [this]
  | swc => simp only at hf; injection hf with hf; have := fm hf; simp [this]
  | composition =>
    simp only at hf
    split at hf
    · rename_i i hi; injection hf with hf; injection hf with hf; subst hf; have := fm hi; simp [this]
    · split at hf
      · rename_i i hi; injection hf with hf; injection hf with hf; subst hf; have := fm hi; simp [this]
      · injection hf with hf; have := fm hf; simp [this]

/-! ### Packages at one place only -/

/-- No package is listed outside its parent. -/
def OnePlace (h : Heap) : Prop := ∀ c x, x ∈ (h.obj c).packages → (h.obj x).parent = some c

theorem onePlace_created {h h' : Heap} {c : Nat} {name : String} (I : Inv h) (hc : c < h.next)
    (C : Created h h' c name) (O : OnePlace h) : OnePlace h' := by
  intro d x hx
  rw [C.packages] at hx
  have hcls : ((h.alloc .package name).obj h.next).cls = .package := by rw [alloc_obj_new]
  rw [C.parent]
  have hold : ∀ e y, y ∈ ((h.alloc .package name).obj e).packages → y < h.next ∧
      (h.obj y).parent = some e := by
    intro e y hy
    by_cases he : e = h.next
    · subst he; rw [alloc_obj_new] at hy; simp at hy
    · rw [alloc_obj_ne _ _ _ he] at hy
      exact ⟨(I.pkgs_cls e y hy).1, O e y hy⟩
  have fin : ∀ e y, y ∈ ((h.alloc .package name).obj e).packages →
      (if y = h.next then some c else ((h.alloc .package name).obj y).parent) = some e := by
    intro e y hy
    obtain ⟨h1, h2⟩ := hold e y hy
    have hne : y ≠ h.next := by omega
    rw [if_neg hne, alloc_obj_ne _ _ _ hne]; exact h2
  split at hx
  · rename_i hd
    obtain ⟨rfl, _⟩ := hd
    rcases List.mem_append.1 hx with hx | hx
    · exact fin d x hx
    · rw [List.mem_singleton] at hx; subst hx; simp
  · exact fin d x hx

theorem onePlace_packageMake : ∀ (fuel : Nat) {h : Heap} (_ : Inv h) {c : Nat} (_ : c < h.next)
    (_ : (h.obj c).cls = .package) (ref : List Char), OnePlace h → OnePlace (packageMake fuel h c ref).1
  | 0, h, I, c, _, _, ref, O => O
  | fuel + 1, h, I, c, hc, hcc, ref, O => by
    unfold packageMake
    split
    · exact O
    · simp only
      split
      · rename_i hg
        rcases packageCreate_cases h c (String.ofList (partL '/' ref).1) hc with ⟨h1, h2⟩ | ⟨h1, h2, h3⟩
        · simp [dictHas, hg] at h1
        · have O1 := onePlace_created I hc h2 O
          have I1 := inv_created I hc (by rw [hcc]; rfl) h1 h2
          cases hq : packageCreate h c (String.ofList (partL '/' ref).1) with
          | mk h4 o =>
            rw [hq] at O1 I1 h2 h3
            simp only at h3
            subst h3
            simp only
            split
            · exact onePlace_packageMake fuel I1 (by rw [created_next h2]; omega) (created_new_cls h2) _ O1
            · exact O1
      · rename_i x hg
        split
        · rename_i hx
          split
          · exact onePlace_packageMake fuel I (map_lt I hg) hx _ O
          · exact O
        · exact O

theorem onePlace_collectionMake1 {h : Heap} (I : Inv h) {c : Nat} (hc : c < h.next)
    (hcc : (h.obj c).cls = .collection) (ref : List Char) (O : OnePlace h) :
    OnePlace (collectionMake1 h c ref).1 := by
  unfold collectionMake1
  simp only
  split
  · rename_i hg
    rcases collectionCreate_cases h c (String.ofList (partL '/' (stripLead '/' ref)).1) hc with
      ⟨h1, h2⟩ | ⟨h1, h2, h3⟩
    · simp [dictHas, hg] at h1
    · have O1 := onePlace_created I hc h2 O
      have I1 := inv_created I hc (by rw [hcc]; rfl) h1 h2
      cases hq : collectionCreate h c (String.ofList (partL '/' (stripLead '/' ref)).1) with
      | mk h4 o =>
        rw [hq] at O1 I1 h2 h3
        simp only at h3
        subst h3
        simp only
        split
        · exact onePlace_packageMake _ I1 (by rw [created_next h2]; omega) (created_new_cls h2) _ O1
        · exact O1
  · rename_i x hg
    split
    · exact onePlace_packageMake _ I (map_lt I hg) (coll_map_pkg I hcc hg) _ O
    · exact O

theorem onePlace_fill : ∀ (l : List (String × String)) (w : MapWs), MapOk w → OnePlace w.heap →
    OnePlace (fillPackageMap w l).1.heap
  | [], w, _, O => O
  | (key, ref) :: rest, w, W, O => by
    have G := (collectionMake1_spec W.inv W.root_lt W.root_cls ref.toList).1
    have I1 := inv_collectionMake1 W.inv W.root_lt W.root_cls ref.toList
    have O1 := onePlace_collectionMake1 W.inv W.root_lt W.root_cls ref.toList O
    unfold fillPackageMap
    cases hq : collectionMake1 w.heap w.root ref.toList with
    | mk h1 o =>
      rw [hq] at G I1 O1
      cases o with
      | error e => exact O1
      | ok p =>
        exact onePlace_fill rest _ ⟨I1, Nat.lt_of_lt_of_le W.root_lt G.next,
          by rw [G.cls _ W.root_lt]; exact W.root_cls⟩ O1

theorem path_of_contains {h : Heap} (O : OnePlace h) {root : Nat} (hroot : (h.obj root).cls = .collection)
    (I : Inv h) {x : Nat} (hx : (h.obj x).cls = .package) :
    ∀ {ns : List String} {c : Nat}, Contains h c ns x →
      (c = root → ParentPath h root ns x) ∧
      (∀ pre, ParentPath h root pre c → ParentPath h root (pre ++ ns) x) := by
  intro ns c hc
  induction hc with
  | @here c y n h1 h2 =>
    have hp := O c y (holds_pkg I h1 hx)
    subst h2
    exact ⟨fun e => by subst e; exact .top hp hroot, fun pre p => .under p hp⟩
  | @down c p y n ns h1 h2 h3 ih =>
    obtain ⟨_, ih2⟩ := ih hx
    have hp := O c p h1
    subst h2
    constructor
    · intro e; subst e
      exact ih2 _ (.top hp hroot)
    · intro pre q
      have := ih2 _ (.under q hp)
      simpa using this

theorem parentPath_one {h : Heap} (I : Inv h) {c : Nat} {x : Nat} {ns ms : List String}
    (a : ParentPath h c ns x) (b : ParentPath h c ms x) : ns = ms := by
  induction a generalizing ms with
  | @top x h1 h2 =>
    cases b with
    | top _ _ => rfl
    | under p hp =>
      rw [h1] at hp; injection hp with hp; subst hp
      exact absurd h2 (parentPath_not_coll I p)
  | @under ns p x h1 h2 ih =>
    cases b with
    | top h3 h4 =>
      rw [h2] at h3; injection h3 with h3; subst h3
      exact absurd h4 (parentPath_not_coll I h1)
    | under p' hp =>
      rw [h2] at hp; injection hp with hp; subst hp
      rw [ih p']

end Verif.Work
