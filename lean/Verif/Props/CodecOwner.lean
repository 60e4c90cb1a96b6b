import Verif.Codec.OwnerSpec
import Verif.Codec.OrderCheck
/-
C57: the reference to an object says what it is and where.
-/
namespace Verif.Props.CodecOwner
open Verif.Py Verif.Ref Verif.Enums
open Verif.Codec Verif.Codec.Owner Verif.Codec.OwnerSpec

/-- The destination argument. -/
def destArg : Option String → DestArg
  | none => .omitted
  | some m => .given (.enum "IdentifiableSubTypes" m)

/-- The destination a reference constructor settles for, whatever the text. -/
def destOf (cn : String) (d : Option String) : Option String :=
  match dictGet refClasses cn with
  | none => none
  | some rc =>
    match (match d with | some m => some m | none => rc.default) with
    | some m => if m ∈ rc.accepted then some m else none
    | none =>
      match rc.accepted with
      | [m] => some m
      | _ => none

theorem construct_destOf {cn : String} {d : Option String} {m : String} (h : destOf cn d = some m)
    (s : String) : construct cn s (destArg d) = .ok ⟨cn, s, m⟩ := by
  unfold destOf at h
  unfold construct
  split at h
  · cases h
  · rename_i rc hrc
    rw [hrc]
    cases d with
    | some m' =>
      simp only at h
      split at h
      · rename_i hm
        cases h
        simp [destArg, baseInit, checkDest, destIn, hm]
      · cases h
    | none =>
      simp only at h
      simp only [destArg]
      cases hd : rc.default with
      | some m' =>
        rw [hd] at h
        simp only at h
        split at h
        · rename_i hm
          cases h
          simp [baseInit, checkDest, destIn, hm]
        · cases h
      | none =>
        rw [hd] at h
        simp only at h
        split at h
        · rename_i m' hacc
          cases h
          simp [baseInit, checkDest, destIn, hacc]
        · cases h

/-- Destination and name agree. -/
def kindOk (c : Cls) : Bool :=
  match refMethod c with
  | none => true
  | some (cn, d) =>
    match destOf cn d with
    | none => false
    | some m =>
      match enumToXml ⟨"IdentifiableSubTypes", m⟩ defaultVersion with
      | .ok tag => dictGet typeNames tag = some c
      | .error _ => false

theorem kinds : ∀ n < 186, kindOk (Cls.ofNat n) = true := by decide +kernel

theorem kind_of (c : Cls) : kindOk c = true := by
  have := kinds c.ctorIdx (by cases c <;> decide)
  rwa [Cls.ofNat_ctorIdx] at this

/-- Holding an object that has a `ref()` without being its parent: only in the places listed. -/
def adoptOk (c : Cls) : Bool :=
  (Schema.ctor c).all fun f => f.alts.all fun
    | .cls d => (c, f.attr) ∈ orphans || (f.attr ∈ adopts c && (refMethod c).isSome) ||
        (refMethod d).isNone
    | _ => true

theorem adopt_of (c : Cls) : adoptOk c = true := by
  have h : ∀ n < 186, adoptOk (Cls.ofNat n) = true := by decide +kernel
  have := h c.ctorIdx (by cases c <;> decide)
  rwa [Cls.ofNat_ctorIdx] at this

theorem accepted {c d : Cls} {a : String} (h : Accepts c a d) :
    (c, a) ∈ orphans ∨ (a ∈ adopts c ∧ refMethod c ≠ none) ∨ refMethod d = none := by
  obtain ⟨f, hf, rfl, hd⟩ := h
  have := adopt_of c
  unfold adoptOk at this
  have := List.all_eq_true.1 (List.all_eq_true.1 this f hf) _ hd
  simp only [Bool.or_eq_true, Bool.and_eq_true, decide_eq_true_eq, Option.isSome_iff_ne_none,
    Option.isNone_iff_eq_none] at this
  rcases this with (h | h) | h
  · exact .inl h
  · exact .inr (.inl h)
  · exact .inr (.inr h)

/-- No parent sits at one of the places listed. -/
def orphanOk (s : Cls × String) : Bool := !(adopts s.1).contains s.2

theorem orphan_not {c : Cls} {a : String} (h : (c, a) ∈ orphans) : a ∉ adopts c := by
  have h0 : orphans.all orphanOk = true := by decide +kernel
  have := List.all_eq_true.1 h0 _ h
  simpa [orphanOk] using this

theorem referable_iff (c : Cls) : c ∈ referable ↔ refMethod c ≠ none := by
  have h : ∀ n < 186, (Cls.ofNat n ∈ referable ↔ refMethod (Cls.ofNat n) ≠ none) := by
    decide +kernel
  have := h c.ctorIdx (by cases c <;> decide)
  rwa [Cls.ofNat_ctorIdx] at this

theorem follow_some {e x : Val Cls} {place : List (String × Nat)} {steps : List (Cls × String)}
    {names : List String} (hp : Part e place steps names x) (hs : ∀ s ∈ steps, s ∉ orphans) :
    ∀ base, (base ≠ none ∨ ∃ c, clsOf e = some c ∧ refMethod c = none) →
      (∃ b, base = some b ∧ follow base e place = some (x, some (extend b names))) ∨
      ∃ c, clsOf x = some c ∧ refMethod c = none := by
  induction hp with
  | here =>
    rintro (_ | b) h
    · rcases h with h | h
      · exact absurd rfl h
      · exact .inr h
    · exact .inl ⟨b, rfl, rfl⟩
  | @step v x y a i c d rest steps names hc hx hd ha hp ih =>
    intro base h
    have hno : (c, a) ∉ orphans := hs _ List.mem_cons_self
    have hrest : ∀ s ∈ steps, s ∉ orphans := fun s h => hs s (by simp [h])
    have hd' : refMethod d = none → ∃ e, clsOf x = some e ∧ refMethod e = none :=
      fun h => ⟨d, hd, h⟩
    rcases accepted ha with h1 | ⟨h1, h2⟩ | h1
    · exact absurd h1 hno
    · rcases base with _ | b
      · rcases h with h | ⟨c', hc', hr⟩
        · exact absurd rfl h
        · rw [hc] at hc'; cases hc'; exact absurd hr h2
      · rcases ih hrest (some (b ++ "/" ++ shortName x)) (.inl (by simp)) with ⟨b', hb, hf⟩ | hf
        · cases hb
          exact .inl ⟨b, rfl, by simp [follow, hx, refString, hc, h1, hf, extend]⟩
        · exact .inr hf
    · rcases ih hrest none (.inr (hd' h1)) with ⟨b', hb, -⟩ | hf
      · cases hb
      · exact .inr hf

/-- C57: the reference that `ref()` of an element or of one of its parts returns, the element being
in a package, is the path of the element followed by the names of the objects on the way to the part,
and its destination is the name of the object's class in files.  Partial: parts below the places
listed as `orphans` have no reference (`C57_none`). -/
theorem C57_ref_partial {e x : Val Cls} {place : List (String × Nat)} {steps : List (Cls × String)}
    {names : List String} {c : Cls} (base : String) (hp : Part e place steps names x)
    (hs : ∀ s ∈ steps, s ∉ orphans) (hc : clsOf x = some c) (hr : c ∈ referable) :
    ∃ r tag, partRef (some base) e place = some (.ok (some r)) ∧
      r.value = extend base names ∧ dictGet typeNames tag = some c ∧
      enumToXml ⟨"IdentifiableSubTypes", r.dest⟩ defaultVersion = .ok tag := by
  rw [referable_iff] at hr
  rcases follow_some hp hs (some base) (.inl (by simp)) with ⟨b, hb, hf⟩ | ⟨c', hc', hn⟩
  · cases hb
    have hk := kind_of c
    unfold kindOk at hk
    cases hm : refMethod c with
    | none => exact absurd hm hr
    | some p =>
      obtain ⟨cn, d⟩ := p
      rw [hm] at hk
      simp only at hk
      cases hd : destOf cn d with
      | none => rw [hd] at hk; cases hk
      | some m =>
        rw [hd] at hk
        simp only at hk
        cases ht : enumToXml ⟨"IdentifiableSubTypes", m⟩ defaultVersion with
        | error er => rw [ht] at hk; cases hk
        | ok tag =>
          rw [ht] at hk
          have hcon := construct_destOf hd (extend base names)
          refine ⟨⟨cn, extend base names, m⟩, tag, ?_, rfl, by simpa using hk, ht⟩
          unfold partRef
          rw [hf]
          unfold callRef
          simp only [hc, hm, Option.map_some]
          unfold destArg at hcon
          cases d <;> simp only at hcon ⊢ <;> rw [hcon]
  · rw [hc] at hc'; cases hc'; exact absurd hn hr

theorem follow_none {e x : Val Cls} {place : List (String × Nat)} {steps : List (Cls × String)}
    {names : List String} (hp : Part e place steps names x) :
    ∀ base, (base = none ∨ ∃ s ∈ steps, s ∈ orphans) → follow base e place = some (x, none) := by
  induction hp with
  | here =>
    rintro base (rfl | ⟨s, hs, -⟩)
    · rfl
    · cases hs
  | @step v x y a i c d rest steps names hc hx hd ha hp ih =>
    intro base h
    have key : follow base v ((a, i) :: rest) = follow (refString base v a x) x rest := by
      simp [follow, hx]
    rw [key]
    rcases h with rfl | ⟨s, hs, ho⟩
    · exact ih _ (.inl (by simp [refString, hc]))
    · rcases List.mem_cons.1 hs with rfl | hs
      · exact ih _ (.inl (by simp [refString, hc, orphan_not ho]))
      · exact ih _ (.inr ⟨s, hs, ho⟩)

/-- C57: while the element is in no package, `ref()` of it and of its parts returns `None`.  Finding:
it also does so for everything below the places listed as `orphans`, wherever the element is. -/
theorem C57_none {e x : Val Cls} {place : List (String × Nat)} {steps : List (Cls × String)}
    {names : List String} {c : Cls} (base : Option String) (hp : Part e place steps names x)
    (h : base = none ∨ ∃ s ∈ steps, s ∈ orphans) (hc : clsOf x = some c) (hr : c ∈ referable) :
    partRef base e place = some (.ok none) := by
  rw [referable_iff] at hr
  unfold partRef
  rw [follow_none hp base h]
  cases hm : refMethod c with
  | none => exact absurd hm hr
  | some p => simp [callRef, hc, hm]

/-- C57: the objects of all other classes have no `ref()`. -/
theorem C57_only {e x : Val Cls} {place : List (String × Nat)} {steps : List (Cls × String)}
    {names : List String} {c : Cls} (base : Option String) (hp : Part e place steps names x)
    (hc : clsOf x = some c) (hr : c ∉ referable) :
    partRef base e place = some (.error .attributeError) := by
  have hn : refMethod c = none := by
    rw [referable_iff] at hr
    simpa using hr
  have hf : ∃ t, follow base e place = some (x, t) := by
    clear hc
    induction hp generalizing base with
    | here => exact ⟨_, rfl⟩
    | @step v x y a i c d rest steps names hc hx hd ha hp ih =>
      obtain ⟨t, ht⟩ := ih (refString base v a x)
      exact ⟨t, by simp [follow, hx, ht]⟩
  obtain ⟨t, ht⟩ := hf
  simp [partRef, ht, callRef, hc, hn]

theorem toList_extend (names : List String) : ∀ base : String,
    (extend base names).toList = base.toList ++ names.flatMap fun n => '/' :: n.toList := by
  induction names with
  | nil => intro b; simp [extend]
  | cons n ns ih => intro b; simp [extend, ih]

theorem span_slash : ∀ (a b : List Char) (x y : List Char), '/' ∉ a → '/' ∉ b →
    (x = [] ∨ ∃ z, x = '/' :: z) → (y = [] ∨ ∃ z, y = '/' :: z) → a ++ x = b ++ y →
    a = b ∧ x = y := by
  intro a
  induction a with
  | nil =>
    intro b x y _ hb hx hy h
    cases b with
    | nil => exact ⟨rfl, h⟩
    | cons c cs =>
      rcases hx with rfl | ⟨z, rfl⟩
      · simp at h
      · simp only [List.nil_append, List.cons_append, List.cons.injEq] at h
        exact absurd (h.1 ▸ List.mem_cons_self) hb
  | cons c cs ih =>
    intro b x y ha hb hx hy h
    cases b with
    | nil =>
      rcases hy with rfl | ⟨z, rfl⟩
      · simp at h
      · simp only [List.nil_append, List.cons_append, List.cons.injEq] at h
        exact absurd (h.1 ▸ List.mem_cons_self) ha
    | cons d ds =>
      simp only [List.cons_append, List.cons.injEq] at h
      obtain ⟨h1, h2⟩ := ih ds x y (fun m => ha (by simp [m])) (fun m => hb (by simp [m])) hx hy h.2
      exact ⟨by rw [h.1, h1], h2⟩

theorem names_eq : ∀ (ns ms : List String), (∀ n ∈ ns, '/' ∉ n.toList) → (∀ n ∈ ms, '/' ∉ n.toList) →
    (ns.flatMap fun n => '/' :: n.toList) = (ms.flatMap fun n => '/' :: n.toList) → ns = ms := by
  intro ns
  have start : ∀ l : List String, (l.flatMap fun n => '/' :: n.toList) = [] ∨
      ∃ z, (l.flatMap fun n => '/' :: n.toList) = '/' :: z := by
    intro l; cases l <;> simp
  induction ns with
  | nil => intro ms _ _ h; cases ms with
    | nil => rfl
    | cons m ms => simp at h
  | cons n ns ih =>
    intro ms hn hm h
    cases ms with
    | nil => simp at h
    | cons m ms =>
      simp only [List.flatMap_cons, List.cons_append, List.cons.injEq, true_and] at h
      obtain ⟨h1, h2⟩ := span_slash _ _ _ _ (hn n (by simp)) (hm m (by simp)) (start ns) (start ms) h
      rw [String.toList_inj.1 h1, ih ms (fun x hx => hn x (by simp [hx])) (fun x hx => hm x (by simp [hx])) h2]

/-- C57: references tell the parts of an element apart as far as the names on the way to them and
their classes do: parts with the same reference have the same names on the way and are of the same
class. -/
theorem C57_apart_partial {e x y : Val Cls} {place place' : List (String × Nat)}
    {steps steps' : List (Cls × String)} {names names' : List String} {c c' : Cls} (base : String)
    {r r' : RefObj} (hp : Part e place steps names x) (hp' : Part e place' steps' names' y)
    (hn : ∀ n ∈ names, '/' ∉ n.toList) (hn' : ∀ n ∈ names', '/' ∉ n.toList)
    (hc : clsOf x = some c) (hc' : clsOf y = some c')
    (h : partRef (some base) e place = some (.ok (some r)))
    (h' : partRef (some base) e place' = some (.ok (some r')))
    (hv : r.value = r'.value) (hd : r.dest = r'.dest) : names = names' ∧ c = c' := by
  have one : ∀ {x : Val Cls} {place : List (String × Nat)} {steps : List (Cls × String)}
      {names : List String} {c : Cls} {r : RefObj}, Part e place steps names x → clsOf x = some c →
      partRef (some base) e place = some (.ok (some r)) →
      ∃ tag, r.value = extend base names ∧ dictGet typeNames tag = some c ∧
        enumToXml ⟨"IdentifiableSubTypes", r.dest⟩ defaultVersion = .ok tag := by
    intro x place steps names c r hp hc h
    by_cases hr : c ∈ referable
    · by_cases hs : ∃ s ∈ steps, s ∈ orphans
      · rw [C57_none _ hp (.inr hs) hc hr] at h; simp at h
      · obtain ⟨r', tag, h1, h2, h3, h4⟩ := C57_ref_partial base hp (by simpa using hs) hc hr
        rw [h1] at h
        simp only [Option.some.injEq, Except.ok.injEq] at h
        subst h
        exact ⟨tag, h2, h3, h4⟩
    · rw [C57_only _ hp hc hr] at h; simp at h
  obtain ⟨t, h1, h2, h3⟩ := one hp hc h
  obtain ⟨t', h1', h2', h3'⟩ := one hp' hc' h'
  rw [h1, h1'] at hv
  have := congrArg String.toList hv
  rw [toList_extend, toList_extend] at this
  rw [hd, h3'] at h3
  cases h3
  rw [h2] at h2'
  exact ⟨names_eq _ _ hn hn' (List.append_cancel_left this), Option.some.inj h2'⟩

theorem fitsS_cls {a : STy Cls} {x : Val Cls} {d : Cls} (h : fitsS a x = true)
    (hd : clsOf x = some d) : a = .cls d := by
  cases x <;> simp only [clsOf] at hd <;> cases hd
  cases a <;> simp [fitsS] at h
  rw [h]

/-- What a constructor has accepted is of an accepted class: the steps of `Part` are those to the
objects in attributes of constructed objects. -/
theorem C57_built {c d : Cls} {data : Data Cls} {v x : Val Cls} {a : String} {i : Nat}
    (h : build tables c data = .ok v) (hx : held v a i = some x) (hd : clsOf x = some d) :
    clsOf v = some c ∧ Accepts c a d := by
  unfold build buildWith at h
  split at h
  · cases h
  split at h
  · cases h
  split at h
  · cases h
  rename_i hall
  cases h
  refine ⟨rfl, ?_⟩
  simp only [Bool.not_eq_false] at hall
  simp only [held] at hx
  generalize hg : dictGet _ a = g at hx
  cases g with
  | none => cases hx
  | some w =>
    have hm := dictGet_mem _ _ _ hg
    simp only [List.mem_filterMap] at hm
    obtain ⟨f, hf, hfv⟩ := hm
    have hok := List.all_eq_true.1 hall f hf
    unfold argOk at hok
    cases hn : normal ((lastOf data f.param).getD none) with
    | none => rw [hn] at hfv; simp at hfv
    | some w' =>
      rw [hn] at hfv hok
      simp only [Option.map_some, Option.some.injEq, Prod.mk.injEq] at hfv
      obtain ⟨rfl, rfl⟩ := hfv
      refine ⟨f, hf, rfl, ?_⟩
      have key : ∀ {x : Val Cls}, clsOf x = some d → (f.alts.any fun a => fitsS a x) = true →
          STy.cls d ∈ f.alts := by
        intro x hd h
        obtain ⟨a, ha, hax⟩ := List.any_eq_true.1 h
        exact fitsS_cls hax hd ▸ ha
      cases w' with
      | list l =>
        simp only at hx
        simp only [fits, Bool.and_eq_true] at hok
        exact key hd (List.all_eq_true.1 hok.2 x (List.mem_of_getElem? hx))
      | _ =>
        simp only at hx
        split at hx
        · cases hx
          simp only [fits, Bool.and_eq_true] at hok
          exact key hd hok.2
        · cases hx

/-! ### Concrete cases and findings -/

/-- A component as read from a file: a port and a behaviour with an event and a runnable that reads
and writes. -/
def app : Val Cls :=
  .obj .ApplicationSoftwareComponentType
    [("name", .str "App"),
     ("ports", .list [.obj .RequirePortPrototype [("name", .str "In")],
       .obj .ProvidePortPrototype [("name", .str "Out")]]),
     ("internal_behavior", .obj .SwcInternalBehavior
       [("name", .str "Behavior"),
        ("events", .list [.obj .InitEvent [("name", .str "Start")]]),
        ("runnables", .list [.obj .RunnableEntity
          [("name", .str "Run"),
           ("data_read_access", .list [.obj .VariableAccess [("name", .str "X")]]),
           ("data_send_point", .list [.obj .VariableAccess [("name", .str "X")]])]])])]

/-- The reference to its second port. -/
example : partRef (some "/Components/App") app [("ports", 1)] =
    some (.ok (some ⟨"PortPrototypeRef", "/Components/App/Out", "P_PORT_PROTOTYPE"⟩)) := by
  decide +kernel

theorem accepts_of {c : Cls} {a : String} {d : Cls}
    (h : ((Schema.ctor c).any fun f => f.attr = a && f.alts.contains (.cls d)) = true) :
    Accepts c a d := by
  obtain ⟨f, hf, h⟩ := List.any_eq_true.1 h
  simp only [Bool.and_eq_true, decide_eq_true_eq, List.contains_iff_mem] at h
  exact ⟨f, hf, h.1, h.2⟩

/-- The hypotheses of `C57_ref_partial` are met by it. -/
example : ∃ names x, Part app [("ports", 1)] [(.ApplicationSoftwareComponentType, "ports")] names x ∧
    names = ["Out"] ∧ (∀ s ∈ [(Cls.ApplicationSoftwareComponentType, "ports")], s ∉ orphans) ∧
    clsOf x = some .ProvidePortPrototype ∧ .ProvidePortPrototype ∈ referable :=
  ⟨_, _, .step (d := .ProvidePortPrototype) rfl rfl rfl (accepts_of (by decide +kernel)) .here,
    rfl, by decide, rfl, by decide⟩

/-- Finding: the behaviour of a component that was read from a file (or passed to the constructor)
does not know the component, so that neither it nor its runnables and events can be referred to,
although the component is in a package. -/
theorem C57_behavior_counterexample : ∃ e x place steps names c base,
    Part e place steps names x ∧ clsOf x = some c ∧ c ∈ referable ∧
    (c = .SwcInternalBehavior ∨ c = .RunnableEntity) ∧
    partRef (some base) e place = some (.ok none) :=
  ⟨app, _, [("internal_behavior", 0), ("runnables", 0)], _, _, .RunnableEntity, "/Components/App",
    .step (d := .SwcInternalBehavior) rfl rfl rfl (accepts_of (by decide +kernel))
      (.step (d := .RunnableEntity) rfl rfl rfl (accepts_of (by decide +kernel)) .here),
    rfl, by decide, .inr rfl, by decide +kernel⟩

/-- Finding: names of access points are made unique in each list only, so a runnable may read and
write at access points with the same reference (here of a behaviour that has one). -/
theorem C57_apart_counterexample : ∃ e x y place place' steps steps' names names' r base,
    Part e place steps names x ∧ Part e place' steps' names' y ∧ place ≠ place' ∧
    (∀ n ∈ names, '/' ∉ n.toList) ∧
    partRef (some base) e place = some (.ok (some r)) ∧
    partRef (some base) e place' = some (.ok (some r)) := by
  let run : Val Cls := .obj .RunnableEntity
    [("name", .str "Run"),
     ("data_read_access", .list [.obj .VariableAccess [("name", .str "X")]]),
     ("data_send_point", .list [.obj .VariableAccess [("name", .str "X")]])]
  exact ⟨run, _, _, [("data_read_access", 0)], [("data_send_point", 0)], _, _, _, _,
    ⟨"VariableAccessRef", "/C/App/B/Run/X", "VARIABLE_ACCESS"⟩, "/C/App/B/Run",
    .step (d := .VariableAccess) rfl rfl rfl (accepts_of (by decide +kernel)) .here,
    .step (d := .VariableAccess) rfl rfl rfl (accepts_of (by decide +kernel)) .here,
    by decide, by decide, by decide +kernel, by decide +kernel⟩

end Verif.Props.CodecOwner
