import Verif.Codec.HistoryProof
import Verif.Props.CodecConnect
import Verif.Props.CodecMake
/-
C69: documents that are extended call by call, and saved and loaded in between.
-/
set_option linter.unusedSimpArgs false
namespace Verif.Props.CodecHistory
open Verif.Py Verif.Ref Verif.Pkg.Spec Verif.Codec Verif.Codec.Spec Verif.Codec.Find Verif.Codec.FindSpec
open Verif.Codec.Connect Verif.Codec.ConnectSpec Verif.Codec.History Verif.Codec.HistorySpec
open Verif.Codec.Older.Spec (areasNamedPkgs SameSide)
open Verif.Codec.TypeHeader (locate locate_package locate_element rel_again way_ne)
open Verif.Props.CodecConnect (element_norm package_norm)

theorem callOk_side {m n : Nat} (h : SameSide m n) {c : Call} (hc : CallOk n c) : CallOk m c := by
  unfold SameSide at h
  cases c with
  | add ref x => exact ⟨hc.1, fun hm => hc.2 (h.1 hm)⟩
  | addRoot p => exact ⟨hc.1, fun hm => hc.2 (h.1 hm)⟩
  | connect ref a b => trivial
  | part ref m x => exact ⟨hc.1, fun hm => hc.2 (h.1 hm)⟩
  | make ref => exact hc

theorem stepOk_side {m n : Nat} (h : SameSide m n) {s : Step} (hs : StepOk n s) : StepOk m s := by
  cases s with
  | call c => exact callOk_side h hs
  | save skip stop v => exact fun hk => (hs hk).trans h.symm

theorem side_refl (n : Nat) : SameSide n n := Iff.rfl

/-- The document with saving and the document without remain alike. -/
theorem sessions (steps : List Step) : ∀ d d0 : Document, Good d → Good d0 →
    normPkgs d.packages = normPkgs d0.packages → SameSide d.schemaVersion d0.schemaVersion →
    (∀ s ∈ steps, StepOk d0.schemaVersion s) →
    ∃ e e0 os, run d steps = .ok (e, os) ∧ run d0 (justCalls steps) = .ok (e0, os) ∧ Good e ∧ Good e0 ∧
      normPkgs e.packages = normPkgs e0.packages ∧ SameSide e.schemaVersion e0.schemaVersion ∧
      e0.schemaVersion = d0.schemaVersion := by
  induction steps with
  | nil => intro d d0 g g0 hn hs _; exact ⟨d, d0, [], rfl, rfl, g, g0, hn, hs, rfl⟩
  | cons s rest ih =>
    intro d d0 g g0 hn hs hok
    have hr : ∀ s ∈ rest, StepOk d0.schemaVersion s := fun s h => hok s (List.mem_cons_of_mem _ h)
    have h1 := hok s (by simp)
    cases s with
    | call c =>
      have n1 := call_norm d.packages c
      have n0 := call_norm d0.packages c
      rw [hn] at n1
      obtain ⟨e, e0, os, r1, r2, r3, r4, r5, r6, r7⟩ := ih ⟨d.schemaVersion, (call d.packages c).1⟩
        ⟨d0.schemaVersion, (call d0.packages c).1⟩ (call_good g (callOk_side hs h1)) (call_good g0 h1)
        (n1.2.symm.trans n0.2) hs hr
      refine ⟨e, e0, (call d.packages c).2 :: os, ?_, ?_, r3, r4, r5, r6, r7⟩
      · rw [run, r1]
      · have ho : (call d0.packages c).2 = (call d.packages c).2 := n0.1.symm.trans n1.1
        have hj : justCalls (Step.call c :: rest) = Step.call c :: justCalls rest := rfl
        rw [hj, run, r2, ho]
    | save skip stop version =>
      obtain ⟨text, w, r⟩ := Older.doc_rt skip stop version d g.wf g.names g.areas
        (fun hk => (h1 hk).trans hs.symm)
      have hv : SameSide (if skip then version else d.schemaVersion) d0.schemaVersion := by
        cases skip with
        | false => exact hs
        | true => exact h1 rfl
      have hg : Good ⟨if skip then version else d.schemaVersion, normPkgs d.packages⟩ :=
        ⟨wfPkgs_norm _ g.wf, (History.names_norm _).symm ▸ g.names,
          fun h => areasPkgs_norm _ (g.areas (hs.2 (hv.1 h)))⟩
      obtain ⟨e, e0, os, r1, r2, r3, r4, r5, r6, r7⟩ := ih _ d0 hg g0
        ((Load.norm_normPkgs _).trans hn) hv hr
      refine ⟨e, e0, os, ?_, r2, r3, r4, r5, r6, r7⟩
      rw [run, w]
      simp only
      rw [r]
      exact r1

/-- C69: saving the document and going on with what is loaded makes no difference. With and without it, every call
has the same outcome, and the documents at the end are the same once they are saved. -/
theorem C69_sessions (doc : Document) (h : WellFormedPkgs doc.packages) (hn : (doc.packages.map Pkg.name).Nodup)
    (ha : doc.schemaVersion < 50 → areasNamedPkgs doc.packages = true)
    (steps : List Step) (hs : ∀ s ∈ steps, StepOk doc.schemaVersion s) :
    ∃ e e0 outcomes, run doc steps = .ok (e, outcomes) ∧ run doc (justCalls steps) = .ok (e0, outcomes) ∧
      ∀ skip stop version, (skip = true → SameSide version doc.schemaVersion) →
        ∃ text text0 f f0, Older.writeDoc skip e = .ok text ∧ Older.readDoc stop version text = .ok f ∧
          Older.writeDoc skip e0 = .ok text0 ∧ Older.readDoc stop version text0 = .ok f0 ∧
          f.packages = f0.packages := by
  obtain ⟨e, e0, os, r1, r2, r3, r4, r5, r6, r7⟩ :=
    sessions steps doc doc ⟨h, hn, ha⟩ ⟨h, hn, ha⟩ rfl (side_refl _) hs
  refine ⟨e, e0, os, r1, r2, fun skip stop version hv => ?_⟩
  rw [← r7] at hv
  obtain ⟨t, w, r⟩ := Older.doc_rt skip stop version e r3.wf r3.names r3.areas
    (fun hk => (hv hk).trans r6.symm)
  obtain ⟨t0, w0, r0⟩ := Older.doc_rt skip stop version e0 r4.wf r4.names r4.areas hv
  exact ⟨t, t0, _, _, w, r, w0, r0, r5⟩

theorem keeps (steps : List Step) : ∀ d : Document, Good d → (∀ s ∈ steps, StepOk d.schemaVersion s) →
    ∀ e os, run d (justCalls steps) = .ok (e, os) → ∀ way v, ElementAt d.packages way v →
      ∃ v', ElementAt e.packages way v' ∧ Kept v v' := by
  induction steps with
  | nil =>
    intro d g _ e os hr way v hv
    cases hr
    exact ⟨v, hv, kept_refl v⟩
  | cons s rest ih =>
    intro d g hok e os hr way v hv
    have hrest : ∀ s ∈ rest, StepOk d.schemaVersion s := fun s h => hok s (List.mem_cons_of_mem _ h)
    cases s with
    | save skip stop version => exact ih d g hrest e os hr way v hv
    | call c =>
      have hj : justCalls (Step.call c :: rest) = Step.call c :: justCalls rest := rfl
      rw [hj, run] at hr
      obtain ⟨v1, a1, a2⟩ := call_keeps g c hv
      split at hr
      · cases hr
      · rename_i d' os' hr'
        cases hr
        obtain ⟨v2, b1, b2⟩ := ih ⟨d.schemaVersion, (call d.packages c).1⟩ (call_good g (show CallOk _ c from hok (.call c) (by simp))) hrest
          _ _ hr' way v1 a1
        exact ⟨v2, b1, kept_trans a2 b2⟩

theorem keepsPkg (steps : List Step) : ∀ d : Document, Good d → (∀ s ∈ steps, StepOk d.schemaVersion s) →
    ∀ e os, run d (justCalls steps) = .ok (e, os) → ∀ way p, PackageAt d.packages way p →
      ∃ p', PackageAt e.packages way p' ∧ p'.head = p.head := by
  induction steps with
  | nil =>
    intro d g _ e os hr way p hp
    cases hr
    exact ⟨p, hp, rfl⟩
  | cons s rest ih =>
    intro d g hok e os hr way p hp
    have hrest : ∀ s ∈ rest, StepOk d.schemaVersion s := fun s h => hok s (List.mem_cons_of_mem _ h)
    cases s with
    | save skip stop version => exact ih d g hrest e os hr way p hp
    | call c =>
      have hj : justCalls (Step.call c :: rest) = Step.call c :: justCalls rest := rfl
      rw [hj, run] at hr
      obtain ⟨p1, a1, a2⟩ := call_packages g c hp
      split at hr
      · cases hr
      · rename_i d' os' hr'
        cases hr
        obtain ⟨p2, b1, b2⟩ := ih ⟨d.schemaVersion, (call d.packages c).1⟩
          (call_good g (show CallOk _ c from hok (.call c) (by simp))) hrest _ _ hr' way p1 a1
        exact ⟨p2, b1, b2.trans a2⟩

/-- C69: nothing is lost. After any steps, the document can be saved and loaded, and every element that was in the
document at the beginning is in what is loaded, under the same names: of the same class, with the attributes that
remain when it is written, where lists may have become longer. Every package is there, too, with its own
attributes. -/
theorem C69_kept (doc : Document) (h : WellFormedPkgs doc.packages) (hn : (doc.packages.map Pkg.name).Nodup)
    (ha : doc.schemaVersion < 50 → areasNamedPkgs doc.packages = true)
    (steps : List Step) (hs : ∀ s ∈ steps, StepOk doc.schemaVersion s)
    (skip stop : Bool) (version : Nat) (hv : skip = true → SameSide version doc.schemaVersion) :
    ∃ e outcomes text f, run doc steps = .ok (e, outcomes) ∧ Older.writeDoc skip e = .ok text ∧
      Older.readDoc stop version text = .ok f ∧
      (∀ way v, ElementAt doc.packages way v →
        ∃ v1 v2, Kept v v1 ∧ ElementAt f.packages way v2 ∧ Same (remains v1) v2) ∧
      ∀ way p, PackageAt doc.packages way p →
        ∃ p1 p2, p1.head = p.head ∧ PackageAt f.packages way p2 ∧ SamePkg (remainsPkg p1) p2 := by
  obtain ⟨e, e0, os, r1, r2, r3, r4, r5, r6, r7⟩ :=
    sessions steps doc doc ⟨h, hn, ha⟩ ⟨h, hn, ha⟩ rfl (side_refl _) hs
  rw [← r7] at hv
  obtain ⟨t, w, r⟩ := Older.doc_rt skip stop version e r3.wf r3.names r3.areas
    (fun hk => (hv hk).trans r6.symm)
  refine ⟨e, os, t, _, r1, w, r, fun way v hat => ?_, fun way p hp => ?_⟩
  · obtain ⟨v1, a1, a2⟩ := keeps steps doc ⟨h, hn, ha⟩ hs e0 os r2 way v hat
    refine ⟨v1, _, a2, ?_, same_norm false v1⟩
    have := element_norm a1
    rw [← r5] at this
    exact this
  · obtain ⟨p1, a1, a2⟩ := keepsPkg steps doc ⟨h, hn, ha⟩ hs e0 os r2 way p hp
    refine ⟨p1, _, a2, ?_, same_pkg p1⟩
    have := package_norm a1
    rw [← r5] at this
    exact this

theorem locate_pkg {ps : List Pkg} (hw : WellFormedPkgs ps) (hd : (ps.map Pkg.name).Nodup) {way : List String}
    {p : Pkg} (hp : PackageAt ps way p) (hg : ∀ n ∈ way, GoodName n) :
    locate ps (absRef way) = .ok (some (.pkg way p)) := by
  have := locate_package hp hw hd [] [] hg
  rw [rel_again (way_ne hp) hg, List.append_nil] at this
  exact this

theorem pkgAt_snoc {ps : List Pkg} {way : List String} {p q : Pkg} {n : String} (h : PackageAt ps way p) :
    q ∈ p.packages → q.name = some n → PackageAt ps (way ++ [n]) q := by
  induction h with
  | here h1 h2 => exact fun hq hn => .inside h1 h2 (.here hq hn)
  | inside h1 h2 h3 ih => exact fun hq hn => .inside h1 h2 (ih hq hn)

theorem at_name {ps : List Pkg} {way : List String} {p : Pkg} (h : PackageAt ps way p) : p.name = way.getLast? := by
  induction h with
  | here h1 h2 => exact h2
  | @inside ps p q n way h1 h2 h3 ih =>
    cases way with
    | nil => cases h3
    | cons a w => rw [List.getLast?_cons_cons]; exact ih

/-- C69: what single calls do. -/
theorem C69_calls (ps : List Pkg) (h : WellFormedPkgs ps) (hn : (ps.map Pkg.name).Nodup) :
    -- an element is put into the package, unless its name is taken
    (∀ way p, PackageAt ps way p → (∀ n ∈ way, GoodName n) → ∀ v n, elemName v = some n →
      (some n ∉ p.elements.map elemName ∧ some n ∉ p.packages.map Pkg.name →
        (call ps (.add (absRef way) (.element v))).2 = .done ∧
        ElementAt (call ps (.add (absRef way) (.element v))).1 (way ++ [n]) v) ∧
      (some n ∈ p.elements.map elemName ∨ some n ∈ p.packages.map Pkg.name →
        (call ps (.add (absRef way) (.element v))).2 = .raised .duplicateElement)) ∧
    -- and a package too
    (∀ way p, PackageAt ps way p → (∀ n ∈ way, GoodName n) → ∀ q n, q.name = some n →
      (some n ∉ p.elements.map elemName ∧ some n ∉ p.packages.map Pkg.name →
        (call ps (.add (absRef way) (.package q))).2 = .done ∧
        PackageAt (call ps (.add (absRef way) (.package q))).1 (way ++ [n]) q) ∧
      (some n ∈ p.elements.map elemName ∨ some n ∈ p.packages.map Pkg.name →
        (call ps (.add (absRef way) (.package q))).2 = .raised .duplicateElement)) ∧
    -- a package is put into the document, unless its name is taken
    (∀ q n, q.name = some n →
      (some n ∉ ps.map Pkg.name →
        (call ps (.addRoot q)).2 = .done ∧ PackageAt (call ps (.addRoot q)).1 [n] q) ∧
      (some n ∈ ps.map Pkg.name → (call ps (.addRoot q)).2 = .raised .valueError)) ∧
    -- a connector that is returned is the last one of the composition
    (∀ way fs, ElementAt ps way (.obj .CompositionSwComponentType fs) → (∀ n ∈ way, GoodName n) → ∀ a b,
      (∃ e, (call ps (.connect (absRef way) a b)).2 = .raised e) ∨
      ∃ k v', (call ps (.connect (absRef way) a b)).2 = .connector k ∧
        ElementAt (call ps (.connect (absRef way) a b)).1 way v' ∧
        members v' "connectors" = members (.obj .CompositionSwComponentType fs) "connectors" ++ [k]) ∧
    -- an `append*` method makes of the element in the document what it makes of the object by itself (C60)
    (∀ way v, ElementAt ps way v → (∀ n ∈ way, GoodName n) → ∀ D m x,
      (∀ v', Append.add D v m x = some (.ok v') →
        (call ps (.part (absRef way) m x)).2 = .done ∧ ElementAt (call ps (.part (absRef way) m x)).1 way v') ∧
      ∀ e, Append.add D v m x = some (.error e) → (call ps (.part (absRef way) m x)).2 = .raised e) ∧
    -- `make_packages` makes a package under the names, unless an element is in the way
    (∀ way t, way ≠ [] → (∀ n ∈ way, GoodName n) → t = absRef way ∨ t = relRef way →
      ((∀ w v, w <+: way → ¬ ElementAt ps w v) → (call ps (.make t)).2 = .package way.getLast? ∧
        ∃ p, PackageAt (call ps (.make t)).1 way p) ∧
      ∀ w v, w <+: way → ElementAt ps w v → (call ps (.make t)).2 = .raised .keyError) ∧
    -- an exception of `find` is that of the call
    (∀ ref e, locate ps ref = .error e → ∀ x a b m y, (call ps (.add ref x)).2 = .raised e ∧
      (call ps (.connect ref a b)).2 = .raised e ∧ (call ps (.part ref m y)).2 = .raised e) ∧
    -- a call that raises an exception changes nothing (if what is given to `make_packages` is a reference, see C71)
    (∀ c e, (∀ t, c = .make t → IsRef t) → (call ps c).2 = .raised e → (call ps c).1 = ps) := by
  have hmem : ∀ (n : String) (p : Pkg), some n ∈ names p ↔
      some n ∈ p.elements.map elemName ∨ some n ∈ p.packages.map Pkg.name := by
    intro n p; cases p; simp [names, Pkg.elements, Pkg.packages]
  refine ⟨?_, ?_, ?_, ?_, ?_, ?_, ?_, ?_⟩
  · intro way p hp hg v n hv
    have hl := locate_pkg h hn hp hg
    refine ⟨fun hno => ?_, fun hyes => ?_⟩
    · have hno' : (Thing.element v).name ∉ names p := by
        rw [show (Thing.element v).name = some n from hv, hmem]; exact fun h => h.elim hno.1 hno.2
      simp only [call, hl, if_neg hno']
      refine ⟨trivial, .mk (at_changed _ hp) ?_ hv⟩
      cases p
      simp only [put, if_neg hno', Pkg.elements]
      simp
    · have hyes' : (Thing.element v).name ∈ names p := by
        rw [show (Thing.element v).name = some n from hv, hmem]; exact hyes
      simp only [call, hl, if_pos hyes']
  · intro way p hp hg q n hv
    have hl := locate_pkg h hn hp hg
    refine ⟨fun hno => ?_, fun hyes => ?_⟩
    · have hno' : (Thing.package q).name ∉ names p := by
        rw [show (Thing.package q).name = some n from hv, hmem]; exact fun h => h.elim hno.1 hno.2
      simp only [call, hl, if_neg hno']
      refine ⟨trivial, pkgAt_snoc (at_changed _ hp) ?_ hv⟩
      cases p
      simp only [put, if_neg hno', Pkg.packages]
      simp
    · have hyes' : (Thing.package q).name ∈ names p := by
        rw [show (Thing.package q).name = some n from hv, hmem]; exact hyes
      simp only [call, hl, if_pos hyes']
  · intro q n hq
    refine ⟨fun hno => ?_, fun hyes => ?_⟩
    · simp only [call, hq, if_neg hno]
      exact ⟨trivial, .here (by simp) hq⟩
    · simp only [call, hq, if_pos hyes]
  · intro way fs hat hg a b
    have hl := locate_element hat h hn [] hg
    rw [List.append_nil, if_pos (by rfl)] at hl
    simp only [call, hl, createConnector]
    cases (Swc.createConnector (envOf ps) (compOf way (.obj .CompositionSwComponentType fs)) a b).2 with
    | error e => exact .inl ⟨e, rfl⟩
    | ok k =>
      refine .inr ⟨_, _, rfl, ex_at (exchanged hat (addTo (connectorObj k)) h hn) (name_add _ _), ?_⟩
      rw [members_add, if_pos rfl]
  · intro way v hat hg D m x
    obtain ⟨c, fs, rfl, har, hwf⟩ := elem_wf hat h
    have hl := locate_element hat h hn [] hg
    rw [List.append_nil, if_pos (by rfl)] at hl
    rw [choose_add D (row har).2.2.1]
    simp only [call, hl]
    cases hx : choose c m x with
    | error e =>
      refine ⟨fun v' hv' => ?_, fun e' he' => ?_⟩
      · cases hv'
      · cases he'; rfl
    | ok p =>
      obtain ⟨a, y⟩ := p
      refine ⟨fun v' hv' => ?_, fun e' he' => ?_⟩
      · cases hv'
        exact ⟨rfl, ex_at (exchanged hat (withPart a y) h hn) (part_name har hx)⟩
      · cases he'
  · intro way t hne hg ht
    refine ⟨fun hfree => ?_, fun w v hw hv => ?_⟩
    · obtain ⟨ps', p, h1, h2, -⟩ := CodecMake.C71_made h hn hne hg hfree t ht
      simp only [call, h1]
      exact ⟨congrArg _ (at_name h2), p, h2⟩
    · obtain ⟨rest, rfl⟩ := hw
      simp only [call, CodecMake.C71_refused h hn hg hv t ht]
  · intro ref e he x a b m y
    simp only [call, he, and_self]
  · intro c e href he
    cases c with
    | make t =>
      obtain ⟨way, hne, hg, ht⟩ := href t rfl
      have hg : ∀ n ∈ way, GoodName n := fun n hn => (hg n hn).1
      by_cases hfree : ∀ w v, w <+: way → ¬ ElementAt ps w v
      · obtain ⟨ps', p, h1, h2, -⟩ := CodecMake.C71_made h hn hne hg hfree t ht
        simp only [call, h1] at he
        cases he
      · simp only [Classical.not_forall, Classical.not_not] at hfree
        obtain ⟨w, v, ⟨rest, rfl⟩, hv⟩ := hfree
        simp only [call, CodecMake.C71_refused h hn hg hv t ht]
    | add ref x =>
      simp only [call] at he ⊢
      split
      · rfl
      · rename_i way p hl
        rw [hl] at he
        simp only at he
        split
        · rfl
        · rename_i hx
          rw [if_neg hx] at he
          cases he
      · rfl
    | addRoot p =>
      simp only [call] at he ⊢
      split
      · rfl
      · rename_i hx
        rw [if_neg hx] at he
        cases he
    | connect ref a b =>
      simp only [call, createConnector] at he ⊢
      split
      · rfl
      · rename_i way fs hl
        rw [hl] at he
        simp only at he
        revert he
        cases (Swc.createConnector (envOf ps) (compOf way (.obj .CompositionSwComponentType fs)) a b).2 with
        | error e => exact fun _ => rfl
        | ok k => exact fun he => by cases he
      · rfl
    | part ref m x =>
      simp only [call] at he ⊢
      split
      · rfl
      · rename_i way c fs hl
        rw [hl] at he
        simp only at he
        revert he
        cases choose c m x with
        | error e => exact fun _ => rfl
        | ok p => exact fun he => by cases he
      · rfl

theorem run_append (a b : List Step) : ∀ (d d1 e : Document) (os os' : List History.Outcome),
    run d a = .ok (d1, os) → run d1 b = .ok (e, os') → run d (a ++ b) = .ok (e, os ++ os') := by
  induction a with
  | nil => intro d d1 e os os' h1 h2; cases h1; exact h2
  | cons s a ih =>
    intro d d1 e os os' h1 h2
    cases s with
    | call c =>
      rw [run] at h1
      rw [List.cons_append, run]
      split at h1
      · cases h1
      · rename_i d' o' hr
        cases h1
        rw [ih _ _ _ _ _ hr h2]
        rfl
    | save skip stop version =>
      rw [run] at h1
      rw [List.cons_append, run]
      split at h1
      · cases h1
      · split at h1
        · cases h1
        · exact ih _ _ _ _ _ h1 h2

theorem run_count (a : List Step) : ∀ (d d1 : Document) (os : List History.Outcome),
    run d a = .ok (d1, os) → os.length = (justCalls a).length := by
  induction a with
  | nil => intro d d1 os h1; cases h1; rfl
  | cons s a ih =>
    intro d d1 os h1
    cases s with
    | call c =>
      rw [run] at h1
      split at h1
      · cases h1
      · rename_i d' o' hr
        cases h1
        rw [List.length_cons, ih _ _ _ hr]
        rfl
    | save skip stop version =>
      rw [run] at h1
      split at h1
      · cases h1
      · split at h1
        · cases h1
        · exact ih _ _ _ h1

/-- The way the text leads. -/
theorem leads_way {ps : List Pkg} {way : List String} (hg : ∀ n ∈ way, GoodName n) (hw : way ≠ [])
    {x : TypeHeader.Place} (hl : locate ps (absRef way) = .ok (some x)) :
    (∀ w p, x = .pkg w p → w = way) ∧ (∀ w v, x = .element w v → w = way) := by
  have := rel_again (rest := []) hw hg
  rw [List.append_nil] at this
  unfold locate at hl
  rw [← this] at hl
  exact locate_way way hg hw [] ps x hl

theorem kept_member {v v' x : Val Cls} {a : String} (h : Kept v v') (hx : x ∈ members v a) : x ∈ members v' a := by
  have hf : ∀ (u : Val Cls) l, field u a = some (.list l) → members u a = l := by
    intro u l hl
    cases u with
    | obj c fs =>
      simp only [field, ← dictGet_lookup] at hl
      simp only [members, hl]
    | _ => cases hl
  have hm : ∃ l, field v a = some (.list l) ∧ x ∈ l := by
    cases v with
    | obj c fs =>
      simp only [members] at hx
      split at hx
      · rename_i l hl
        refine ⟨l, ?_, hx⟩
        simp only [field, ← dictGet_lookup]
        exact hl
      · simp at hx
    | _ => simp [members] at hx
  obtain ⟨l, h1, h2⟩ := hm
  rcases h.2 a with e | ⟨old, new, e1, e2⟩
  · rw [hf v' l (e.trans h1)]; exact h2
  · rw [h1] at e1
    rcases e1 with e1 | ⟨e1, -⟩
    · cases e1
      rw [hf v' _ e2]
      exact List.mem_append_left _ h2
    · cases e1

/-- C69: what is added stays, wherever in a history the call is made: when it returns, the element or part appended,
and the connector made, are in what is loaded at the end. -/
theorem C69_added (doc : Document) (h : WellFormedPkgs doc.packages) (hn : (doc.packages.map Pkg.name).Nodup)
    (ha : doc.schemaVersion < 50 → areasNamedPkgs doc.packages = true)
    (before : List Step) (c : Call) (after : List Step)
    (hs : ∀ s ∈ before ++ .call c :: after, StepOk doc.schemaVersion s)
    (skip stop : Bool) (version : Nat) (hv : skip = true → SameSide version doc.schemaVersion) :
    ∃ e os o os' text f, run doc (before ++ .call c :: after) = .ok (e, os ++ o :: os') ∧
      os.length = (justCalls before).length ∧
      Older.writeDoc skip e = .ok text ∧ Older.readDoc stop version text = .ok f ∧
      (∀ way v n, c = .add (absRef way) (.element v) → way ≠ [] → (∀ m ∈ way, GoodName m) →
        elemName v = some n → o = .done →
        ∃ v1 v2, Kept v v1 ∧ ElementAt f.packages (way ++ [n]) v2 ∧ Same (remains v1) v2) ∧
      (∀ way a b k, c = .connect (absRef way) a b → way ≠ [] → (∀ m ∈ way, GoodName m) → o = .connector k →
        ∃ v1 v2, k ∈ members v1 "connectors" ∧ ElementAt f.packages way v2 ∧ Same (remains v1) v2) ∧
      (∀ way m x, c = .part (absRef way) m x → way ≠ [] → (∀ m ∈ way, GoodName m) → o = .done →
        ∃ a v1 v2, x ∈ members v1 a ∧ ElementAt f.packages way v2 ∧ Same (remains v1) v2) ∧
      (∀ way q n, c = .add (absRef way) (.package q) → way ≠ [] → (∀ m ∈ way, GoodName m) →
        q.name = some n → o = .done →
        ∃ p1 p2, p1.head = q.head ∧ PackageAt f.packages (way ++ [n]) p2 ∧ SamePkg (remainsPkg p1) p2) ∧
      (∀ way t n, c = .make t → way ≠ [] → (∀ m ∈ way, GoodName m) → t = absRef way ∨ t = relRef way →
        o = .package n → ∃ p, PackageAt f.packages way p) := by
  have hb : ∀ s ∈ before, StepOk doc.schemaVersion s := fun s h => hs s (by simp [h])
  have hc : CallOk doc.schemaVersion c := hs (.call c) (by simp)
  have hf : ∀ s ∈ after, StepOk doc.schemaVersion s := fun s h => hs s (by simp [h])
  obtain ⟨d, d0, os, r1, -, r3, -, -, r6, r7⟩ :=
    sessions before doc doc ⟨h, hn, ha⟩ ⟨h, hn, ha⟩ rfl (side_refl _) hb
  rw [r7] at r6
  have g := call_good r3 (callOk_side r6 hc)
  obtain ⟨e, os', text, f, k1, k2, k3, k4, k5⟩ := C69_kept ⟨d.schemaVersion, (call d.packages c).1⟩ g.wf g.names g.areas
    after (fun s h => stepOk_side r6 (hf s h)) skip stop version (fun hk => (hv hk).trans r6.symm)
  have hrun : run d (.call c :: after) = .ok (e, (call d.packages c).2 :: os') := by rw [run, k1]
  refine ⟨e, os, _, os', text, f, run_append _ _ _ _ _ _ _ r1 hrun, run_count _ _ _ _ r1, k2, k3, ?_, ?_, ?_, ?_, ?_⟩
  · rintro way v n rfl hw hg hm ho
    have : ElementAt (call d.packages (.add (absRef way) (.element v))).1 (way ++ [n]) v := by
      simp only [call] at ho
      split at ho
      · cases ho
      · rename_i w p hl
        split at ho
        · cases ho
        · have hww := (leads_way hg hw hl).1 _ _ rfl
          subst hww
          obtain ⟨ns, e1, e2, -⟩ := locate_there r3.wf hl
          rw [List.nil_append] at e1
          subst e1
          rename_i hno
          refine (((C69_calls d.packages r3.wf r3.names).1 _ p e2 hg v n hm).1 ?_).2
          rw [show (Thing.element v).name = some n from hm] at hno
          cases p
          simp only [names, List.mem_append, not_or] at hno
          exact hno
      · cases ho
    obtain ⟨v1, v2, a1, a2, a3⟩ := k4 _ _ this
    exact ⟨v1, v2, a1, a2, a3⟩
  · rintro way a b k rfl hw hg ho
    have : ∃ v', ElementAt (call d.packages (.connect (absRef way) a b)).1 way v' ∧ k ∈ members v' "connectors" := by
      have ho' := ho
      simp only [call] at ho'
      split at ho'
      · cases ho'
      · rename_i w fs hl
        have hww := (leads_way hg hw hl).2 _ _ rfl
        subst hww
        obtain ⟨ns, e1, e2, -⟩ := locate_there r3.wf hl
        rw [List.nil_append] at e1
        subst e1
        rcases (C69_calls d.packages r3.wf r3.names).2.2.2.1 _ fs e2 hg a b with ⟨e, he⟩ | ⟨k', v', b1, b2, b3⟩
        · rw [he] at ho; cases ho
        · rw [b1] at ho
          cases ho
          exact ⟨v', b2, by rw [b3]; simp⟩
      · cases ho'
    obtain ⟨v', b1, b2⟩ := this
    obtain ⟨v1, v2, a1, a2, a3⟩ := k4 _ _ b1
    exact ⟨v1, v2, kept_member a1 b2, a2, a3⟩
  · rintro way m x rfl hw hg ho
    have : ∃ a v', ElementAt (call d.packages (.part (absRef way) m x)).1 way v' ∧ x ∈ members v' a := by
      simp only [call] at ho ⊢
      split at ho
      · cases ho
      · rename_i w c fs hl
        have hww := (leads_way hg hw hl).2 _ _ rfl
        subst hww
        obtain ⟨ns, e1, e2, -⟩ := locate_there r3.wf hl
        rw [List.nil_append] at e1
        subst e1
        obtain ⟨c0, gs, hv1, har, hwf⟩ := elem_wf e2 r3.wf
        cases hv1
        cases hx : choose c m x with
        | error e => rw [hx] at ho; cases ho
        | ok p =>
          obtain ⟨a, y⟩ := p
          obtain ⟨rfl, -, hac, -⟩ := chosen har hx
          refine ⟨a, _, ex_at (exchanged e2 (withPart a y) r3.wf r3.names) (part_name har hx), ?_⟩
          rw [withPart_eq]
          simp only [members, pick_get, if_pos hac, if_true]
          simp
      · cases ho
    obtain ⟨a, v', b1, b2⟩ := this
    obtain ⟨v1, v2, a1, a2, a3⟩ := k4 _ _ b1
    exact ⟨a, v1, v2, kept_member a1 b2, a2, a3⟩

  · rintro way q n rfl hw hg hm ho
    have : PackageAt (call d.packages (.add (absRef way) (.package q))).1 (way ++ [n]) q := by
      simp only [call] at ho
      split at ho
      · cases ho
      · rename_i w p hl
        split at ho
        · cases ho
        · have hww := (leads_way hg hw hl).1 _ _ rfl
          subst hww
          obtain ⟨ns, e1, e2, -⟩ := locate_there r3.wf hl
          rw [List.nil_append] at e1
          subst e1
          rename_i hno
          refine (((C69_calls d.packages r3.wf r3.names).2.1 _ p e2 hg q n hm).1 ?_).2
          rw [show (Thing.package q).name = some n from hm] at hno
          cases p
          simp only [names, List.mem_append, not_or] at hno
          exact hno
      · cases ho
    exact k5 _ _ this
  · rintro way t n rfl hw hg ht ho
    have hcalls := (C69_calls d.packages r3.wf r3.names).2.2.2.2.2.1 way t hw hg ht
    have hfree : ∀ w v, w <+: way → ¬ ElementAt d.packages w v := by
      intro w v hpre hat
      rw [hcalls.2 w v hpre hat] at ho
      cases ho
    obtain ⟨p, hp⟩ := (hcalls.1 hfree).2
    obtain ⟨p1, p2, -, b2, -⟩ := k5 _ _ hp
    exact ⟨p2, b2⟩

/-! ### A history -/

open Verif.Props.CodecConnect (sample sample_wf sender receiver system)

/-- Begun with an empty document: a package, the components, saved, the composition, saved, a connector, another
port, saved, two wrong calls, a connector of the new port, the same name again, a text that leads to nothing,
a package in the package, and one in a component. -/
def history : List Step :=
  [.call (.addRoot (.mk [("name", .str "Swcs")] [] [])),
   .call (.add "/Swcs" (.element sender)), .call (.add "Swcs" (.element receiver)),
   .save false true 51,
   .call (.add "/Swcs" (.element system)),
   .save true true 51,
   .call (.connect "/Swcs/System" (.str "S/Out") (.str "R/In")),
   .call (.part "/Swcs/Sender" "append_port" (.obj .ProvidePortPrototype [("name", .str "More")])),
   .save true true 51,
   .call (.part "/Swcs/Sender" "append_component" (.obj .ProvidePortPrototype [("name", .str "More")])),
   .call (.part "/Swcs/Sender" "append_port" (.str "More")),
   .call (.connect "/Swcs/System" (.str "S/More") (.str "R/In")),
   .call (.add "/Swcs" (.element sender)),
   .call (.add "/Nowhere" (.element sender)),
   .call (.make "/Swcs/Types"), .call (.make "Swcs/Sender/Types")]

/-- It meets the hypotheses. -/
example : WellFormedPkgs (⟨51, []⟩ : Document).packages ∧ ((⟨51, []⟩ : Document).packages.map Pkg.name).Nodup ∧
    ∀ s ∈ history, StepOk 51 s := by
  have h1 : WellFormed .ApplicationSoftwareComponentType sender := ⟨by decide +kernel, by decide +kernel⟩
  have h2 : WellFormed .ApplicationSoftwareComponentType receiver := ⟨by decide +kernel, by decide +kernel⟩
  have h3 : WellFormed .CompositionSwComponentType system := ⟨by decide +kernel, by decide +kernel⟩
  refine ⟨trivial, by decide, ?_⟩
  simp only [history, List.mem_cons, List.not_mem_nil, or_false]
  rintro s (rfl | rfl | rfl | rfl | rfl | rfl | rfl | rfl | rfl | rfl | rfl | rfl | rfl | rfl | rfl | rfl)
  · refine ⟨?_, fun h => absurd h (by decide)⟩
    simp only [WellFormedPkg, WellFormedPkgs, List.not_mem_nil, false_implies, implies_true, and_true, true_and]
    exact ⟨⟨by decide +kernel, by decide +kernel⟩, by decide +kernel⟩
  · exact ⟨⟨_, by decide +kernel, h1⟩, fun h => absurd h (by decide)⟩
  · exact ⟨⟨_, by decide +kernel, h2⟩, fun h => absurd h (by decide)⟩
  · exact fun h => absurd h (by decide)
  · exact ⟨⟨_, by decide +kernel, h3⟩, fun h => absurd h (by decide)⟩
  · exact fun _ => side_refl 51
  · trivial
  · exact ⟨fun c fs e => by cases e; exact ⟨by decide +kernel, by decide +kernel⟩, fun h => absurd h (by decide)⟩
  · exact fun _ => side_refl 51
  · exact ⟨fun c fs e => by cases e; exact ⟨by decide +kernel, by decide +kernel⟩, fun h => absurd h (by decide)⟩
  · exact ⟨fun c fs e => (by cases e), fun h => absurd h (by decide)⟩
  · trivial
  · exact ⟨⟨_, by decide +kernel, h1⟩, fun h => absurd h (by decide)⟩
  · exact ⟨⟨_, by decide +kernel, h1⟩, fun h => absurd h (by decide)⟩
  · refine ⟨["Swcs", "Types"], by simp, ?_, .inl (by decide +kernel)⟩
    simp only [List.mem_cons, List.not_mem_nil, or_false]
    rintro n (rfl | rfl) <;> exact ⟨⟨by decide, by decide⟩, by decide⟩
  · refine ⟨["Swcs", "Sender", "Types"], by simp, ?_, .inr (by decide +kernel)⟩
    simp only [List.mem_cons, List.not_mem_nil, or_false]
    rintro n (rfl | rfl | rfl) <;> exact ⟨⟨by decide, by decide⟩, by decide⟩

/-- What the user sees of the calls. -/
example : ∃ e k k', run ⟨51, []⟩ (justCalls history) =
    .ok (e, [.done, .done, .done, .done, .connector (connectorObj k), .done, .raised .attributeError,
      .raised .typeError, .connector (connectorObj k'), .raised .duplicateElement, .missing,
      .package (some "Types"), .raised .keyError]) :=
  ⟨_, _, _, by with_unfolding_all rfl⟩

end Verif.Props.CodecHistory
