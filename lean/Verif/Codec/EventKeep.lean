import Verif.Codec.EventPut
/-
What is read of the document is the same after loading; the list of events afterwards.
-/
set_option linter.unusedSimpArgs false
namespace Verif.Codec.Event
open Verif.Py Verif.Ref Verif.Codec Verif.Codec.Spec Verif.Codec.Find Verif.Codec.FindSpec Verif.Pkg.Spec
open Verif.Codec.Connect (portKind refAttr of_cls areas_list_append)
open Verif.Codec.ConnectSpec Verif.Codec.EventSpec Verif.Codec.Older.Spec
open Verif.Codec.Owner (shortName)
open Verif.Codec.TypeHeader (attr refOf locate normPlace locatePkgs_norm get_norm refOf_norm kept_list name_attr)
open Verif.Names (Name Plain Digits makeUnique)
open Verif.Props.Names (numbered C10_effect_partial C10_fresh_partial)

/-! ### After loading -/

/-- The attributes that are read. -/
def readNames : List String :=
  ["ports", "internal_behavior", "port_interface_ref", "data_elements", "operations", "mode_group", "type_ref",
   "mode_declarations", "mode_transitions", "runnables", "events"]

theorem read_kept (c : Cls) : ∀ a ∈ readNames, kept? c a = true := by
  have h : ∀ n < 186, ∀ a ∈ readNames, kept? (Cls.ofNat n) a = true := by decide +kernel
  have := h c.ctorIdx (by cases c <;> decide)
  rwa [Cls.ofNat_ctorIdx] at this

theorem members_norm (b : Bool) (v : Val Cls) {a : String} (ha : a ∈ readNames) :
    ∃ b', members (normVal tables b v) a = (members v a).map (normVal tables b') := by
  cases v with
  | obj c fs => rw [normVal]; exact ⟨_, kept_list (read_kept c a ha) fs⟩
  | _ => exact ⟨false, by simp [normVal, members]⟩

theorem attr_norm (b : Bool) (v : Val Cls) {a : String} (ha : a ∈ readNames) :
    ∃ b', attr (normVal tables b v) a = (attr v a).map (normVal tables b') := by
  cases v with
  | obj c fs => exact ⟨_, get_norm c a (read_kept c a ha) fs⟩
  | _ => exact ⟨false, by simp [normVal, attr]⟩

theorem ref_norm (b : Bool) (v : Val Cls) {a : String} (ha : a ∈ readNames) :
    refOf (attr (normVal tables b v) a) = refOf (attr v a) := by
  obtain ⟨b', h⟩ := attr_norm b v ha
  rw [h, refOf_norm]

theorem elems_norm (b : Bool) (v : Val Cls) {a : String} (ha : a ∈ readNames) (way : List String) :
    (members (normVal tables b v) a).map (elemOf way) = (members v a).map (elemOf way) := by
  obtain ⟨b', h⟩ := members_norm b v ha
  rw [h, List.map_map]
  exact List.map_congr_left fun x _ => by simp only [Function.comp_apply, elemOf, name_attr]

theorem names_norm (b : Bool) (v : Val Cls) {a : String} (ha : a ∈ readNames) :
    (members (normVal tables b v) a).map shortName = (members v a).map shortName := by
  obtain ⟨b', h⟩ := members_norm b v ha
  rw [h, List.map_map]
  exact List.map_congr_left fun x _ => name_attr b' x

theorem locate_norm (ps : List Pkg) (r : String) :
    locate (normPkgs ps) r = (locate ps r).map fun r => r.map normPlace :=
  locatePkgs_norm [] ps _

theorem modes_norm (ps : List Pkg) (r : Option String) : modesAt (normPkgs ps) r = modesAt ps r := by
  cases r with
  | none => rfl
  | some r =>
    simp only [modesAt, locate_norm]
    cases locate ps r with
    | error e => rfl
    | ok x =>
      cases x with
      | none => rfl
      | some x =>
        cases x with
        | element way v =>
          have h1 := elems_norm false v (a := "mode_declarations") (by decide) way
          have h2 := names_norm false v (a := "mode_transitions") (by decide)
          cases v with
          | obj c fs =>
            simp only [normVal] at h1 h2
            cases c <;> simp only [Except.map, Option.map_some, normPlace, normVal, h1, h2]
          | _ => simp only [Except.map, Option.map_some, normPlace, normVal]
        | _ => rfl

theorem group_norm (ps : List Pkg) (K : Known) (way : List String) (b : Bool) (g : Val Cls) :
    groupOf (normPkgs ps) K way (normVal tables b g) = groupOf ps K way g := by
  unfold groupOf
  rw [name_attr, ref_norm b g (by decide), modes_norm]

theorem ifaceAs_norm (ps : List Pkg) (K : Known) (way : List String) (b : Bool) (v : Val Cls) :
    ifaceAs (normPkgs ps) K way (normVal tables b v) = ifaceAs ps K way v := by
  have h1 := elems_norm b v (a := "data_elements") (by decide) way
  have h2 := elems_norm b v (a := "operations") (by decide) way
  obtain ⟨b', h3⟩ := attr_norm b v (a := "mode_group") (by decide)
  have h4 : ((attr v "mode_group").map (normVal tables b')).map (groupOf (normPkgs ps) K way) =
      (attr v "mode_group").map (groupOf ps K way) := by
    rw [Option.map_map]
    congr 1
    funext g
    exact group_norm ps K way b' g
  cases v with
  | obj c fs =>
    simp only [normVal] at h1 h2 h3
    cases c <;> simp only [normVal, ifaceAs, h1, h2, h3, h4]
  | _ => simp only [normVal, ifaceAs]

theorem iface_norm (ps : List Pkg) (K : Known) (r : Option String) :
    ifaceAt (normPkgs ps) K r = ifaceAt ps K r := by
  cases r with
  | none => rfl
  | some r =>
    simp only [ifaceAt, locate_norm]
    cases locate ps r with
    | error e => rfl
    | ok x =>
      cases x with
      | none => rfl
      | some x =>
        cases x with
        | element way v => simp only [Except.map, Option.map_some, normPlace, ifaceAs_norm]
        | _ => rfl

theorem portOf_norm (ps : List Pkg) (K : Known) (way : List String) (b : Bool) (x : Val Cls) :
    portOf (normPkgs ps) K way (normVal tables b x) = portOf ps K way x := by
  have h : portKind (normVal tables b x) = portKind x := by
    cases x with
    | obj c fs => cases c <;> simp [normVal, portKind]
    | _ => simp [normVal, portKind]
  unfold portOf
  rw [h, name_attr, ref_norm b x (by decide), iface_norm]

theorem ports_norm (ps : List Pkg) (K : Known) (way : List String) (b : Bool) (v : Val Cls) :
    (members (normVal tables b v) "ports").filterMap (portOf (normPkgs ps) K way) =
      (members v "ports").filterMap (portOf ps K way) := by
  obtain ⟨b', h⟩ := members_norm b v (a := "ports") (by decide)
  rw [h, List.filterMap_map]
  congr 1
  funext x
  exact portOf_norm ps K way b' x

theorem behavior_norm (ps : List Pkg) (K : Known) (way : List String) (b c : Bool) (v w : Val Cls) :
    behaviorOf (normPkgs ps) K way (normVal tables b v) (normVal tables c w) = behaviorOf ps K way v w := by
  obtain ⟨b1, h1⟩ := members_norm c w (a := "runnables") (by decide)
  obtain ⟨b2, h2⟩ := members_norm c w (a := "events") (by decide)
  unfold behaviorOf compOf
  rw [h1, h2, ports_norm, name_attr, List.map_map, List.map_map]
  congr 1
  · exact List.map_congr_left fun x _ => by simp only [Function.comp_apply, runOf, name_attr]
  · exact List.map_congr_left fun x _ => by simp only [Function.comp_apply, oldEvent, name_attr]

/-! ### Which groups know their interfaces -/

/-- The port without its mode group. -/
def noGroup (p : Swc.EvPort) : Swc.EvPort :=
  { p with iface := p.iface.map fun | .modeSwitch _ => .modeSwitch none | i => i }

/-- The behaviour whose component has ports without mode groups. -/
def noGroups (b : Swc.Behavior) : Swc.Behavior :=
  { b with swc := b.swc.map fun c => { c with ports := c.ports.map noGroup } }

theorem r_noGroup (c : Swc.EvComp) (n : List Char) :
    Swc.findRPort { c with ports := c.ports.map noGroup } n = (Swc.findRPort c n).map noGroup := by
  unfold Swc.findRPort
  rw [List.find?_map]
  rfl

theorem p_noGroup (c : Swc.EvComp) (n : List Char) :
    Swc.findPPort { c with ports := c.ports.map noGroup } n = (Swc.findPPort c n).map noGroup := by
  unfold Swc.findPPort
  rw [List.find?_map]
  rfl

theorem data_noGroup (c : Swc.EvComp) (p : Swc.EvPort) (n : Option (List Char)) :
    Swc.dataElementIn { c with ports := c.ports.map noGroup } (noGroup p) n = Swc.dataElementIn c p n := by
  obtain ⟨a, k, r, i⟩ := p
  cases i with
  | error e => rfl
  | ok i => cases i <;> rfl

theorem op_noGroup (c : Swc.EvComp) (p : Swc.EvPort) (n : Option (List Char)) :
    Swc.operationIn { c with ports := c.ports.map noGroup } (noGroup p) n = Swc.operationIn c p n := by
  obtain ⟨a, k, r, i⟩ := p
  cases i with
  | error e => rfl
  | ok i => cases i <;> rfl

theorem base_noGroup (b : Swc.Behavior) (given : Option Name) (key : String) (parts : List String) :
    Swc.eventBase (noGroups b) given key parts = Swc.eventBase b given key parts := by
  obtain ⟨r, s, e⟩ := b
  cases s <;> rfl

theorem onPort_noGroup (D : Digits) (b : Swc.Behavior) (run : String) (given : Option Name)
    (extra : Option PyErr) (key : String) (kind : Swc.EventKind) (text : String)
    (findPort : Swc.EvComp → List Char → Option Swc.EvPort)
    (elemIn : Swc.EvComp → Swc.EvPort → Option (List Char) → Except PyErr (Option Swc.Elem))
    (t : String → String → Swc.EvTarget)
    (h1 : ∀ c n, findPort { c with ports := c.ports.map noGroup } n = (findPort c n).map noGroup)
    (h2 : ∀ c p n, elemIn { c with ports := c.ports.map noGroup } (noGroup p) n = elemIn c p n) :
    Swc.createOnPort D (noGroups b) run given extra key kind text findPort elemIn t =
      Swc.createOnPort D b run given extra key kind text findPort elemIn t := by
  have hb := base_noGroup b given key
  obtain ⟨rs, s, es⟩ := b
  cases s with
  | none => rfl
  | some c =>
    unfold Swc.createOnPort
    simp only [hb]
    simp only [noGroups, Option.map_some, h1]
    have hf : Swc.findRunnable ⟨rs, some { c with ports := c.ports.map noGroup }, es⟩ run =
      Swc.findRunnable ⟨rs, some c, es⟩ run := rfl
    simp only [hf]
    cases Swc.findRunnable ⟨rs, some c, es⟩ run with
    | none => rfl
    | some r =>
      simp only
      cases Swc.portParts text with
      | error e => rfl
      | ok q =>
        obtain ⟨pn, en⟩ := q
        simp only
        cases findPort c pn with
        | none => rfl
        | some p =>
          simp only [Option.map_some, h2]
          rfl

theorem create_noGroup (D : Digits) (b : Swc.Behavior) (run : String) (given : Option Name)
    (extra : Option PyErr) {req : Swc.Request} (hr : ¬ AboutModes req) :
    Swc.createEvent D (noGroups b) run given extra req = Swc.createEvent D b run given extra req := by
  have plain : ∀ key kind t, Swc.createPlain D (noGroups b) run given extra key kind t =
      Swc.createPlain D b run given extra key kind t := by
    intro key kind t
    unfold Swc.createPlain
    rw [base_noGroup]
    rfl
  cases req with
  | background => exact plain _ _ _
  | init => exact plain _ _ _
  | timing p o => exact plain _ _ _
  | dataReceiveError t => exact onPort_noGroup _ _ _ _ _ _ _ _ _ _ _ r_noGroup data_noGroup
  | dataReceived t => exact onPort_noGroup _ _ _ _ _ _ _ _ _ _ _ r_noGroup data_noGroup
  | operationInvoked t => exact onPort_noGroup _ _ _ _ _ _ _ _ _ _ _ p_noGroup op_noGroup
  | modeManagerError p => exact absurd trivial hr
  | modeSwitch a o => exact absurd trivial hr
  | dataSendCompleted => rfl
  | dataWriteCompleted => rfl

theorem port_noGroup (ps : List Pkg) (K K' : Known) (way : List String) (x : Val Cls) :
    (portOf ps K way x).map noGroup = (portOf ps K' way x).map noGroup := by
  have hi : ∀ r, (ifaceAt ps K r).map (fun | .modeSwitch _ => Swc.EvIface.modeSwitch none | i => i) =
      (ifaceAt ps K' r).map (fun | .modeSwitch _ => Swc.EvIface.modeSwitch none | i => i) := by
    intro r
    unfold ifaceAt
    split
    · rfl
    · split
      · rfl
      · rename_i w y _
        simp only [Except.map]
        congr 1
        cases y with
        | obj c fs => cases c <;> rfl
        | _ => rfl
      · rfl
      · rfl
  unfold portOf
  cases portKind x with
  | none => rfl
  | some k =>
    simp only [Option.map_some, noGroup]
    rw [hi]

theorem ports_noGroup (ps : List Pkg) (K K' : Known) (way : List String) (v : Val Cls) :
    ((members v "ports").filterMap (portOf ps K way)).map noGroup =
      ((members v "ports").filterMap (portOf ps K' way)).map noGroup := by
  rw [List.map_filterMap, List.map_filterMap]
  congr 1
  funext x
  exact port_noGroup ps K K' way x

theorem behavior_noGroup (ps : List Pkg) {K K' : Known} (hb : K'.behavior = K.behavior)
    (hs : K'.settings = K.settings) (way : List String) (v b : Val Cls) :
    noGroups (behaviorOf ps K' way v b) = noGroups (behaviorOf ps K way v b) := by
  unfold noGroups behaviorOf compOf
  simp only [hb, hs]
  congr 1
  · exact List.map_congr_left fun x _ => by simp only [runOf, hb]
  · cases K.behavior with
    | false => rfl
    | true => simp only [if_true, Option.map_some, ports_noGroup ps K' K way v]

theorem dest_noGroup (ports : List Swc.EvPort) (k : Swc.PortKind) (r : String) :
    destFor (ports.map noGroup) k r = destFor ports k r := by
  unfold destFor
  rw [List.find?_map]
  have : (ports.find? ((fun p => decide (p.kind ≠ k) && decide (p.ref = r)) ∘ noGroup)) =
      ports.find? fun p => decide (p.kind ≠ k) && decide (p.ref = r) := rfl
  rw [this]
  cases ports.find? fun p => decide (p.kind ≠ k) && decide (p.ref = r) <;> rfl

theorem obj_noGroup (ports : List Swc.EvPort) (e : Swc.Event) :
    eventObj (ports.map noGroup) e = eventObj ports e := by
  have h1 : reqRef (ports.map noGroup) = reqRef ports := by
    funext r; unfold reqRef; rw [dest_noGroup]
  have h2 : provRef (ports.map noGroup) = provRef ports := by
    funext r; unfold provRef; rw [dest_noGroup]
  have h3 : modeObj (ports.map noGroup) = modeObj ports := by
    funext r; unfold modeObj; rw [h1]
  unfold eventObj
  congr 2
  cases e.target <;> simp only [targetFields, h1, h2, h3]

/-! ### The list of events -/

theorem event_entry {x : Val Cls} (h : EventOk x) :
    ∃ c, STy.cls c ∈ eventsField.alts ∧ hasName c = true ∧ WellFormed c x ∧ classOf x = some c := by
  obtain ⟨⟨t, ht, hs⟩, hp⟩ := h
  obtain ⟨f, hf, -, hall⟩ := lists_named (.SwcInternalBehavior, "events") (by simp [lists])
  rw [events_shape.1] at hf
  cases hf
  have := List.all_eq_true.1 hall t ht
  split at this
  · next c =>
    obtain ⟨gs, rfl, hw⟩ := of_cls hs hp
    exact ⟨c, ht, this, hw, rfl⟩
  · cases this

theorem entry_named {x : Val Cls} (h : EventOk x) : Named x := by
  obtain ⟨c, -, h1, h2, h3⟩ := event_entry h
  cases x with
  | obj c' fs =>
    simp only [classOf, Option.some.injEq] at h3
    subst h3
    exact named_wf h2 h1
  | _ => simp [classOf] at h3

theorem numbered_ok {base : Name} (h : NameOk base) (k : Nat) :
    numbered base k ≠ [] ∧ plainText (String.ofList (numbered base k)) = true := by
  refine ⟨by simp [numbered], ?_⟩
  have h1 := h.2.2
  unfold plainText at h1 ⊢
  simp only [String.toList_ofList, List.all_eq_true] at h1 ⊢
  intro c hc
  simp only [numbered, List.mem_append, List.mem_cons] at hc
  rcases hc with hc | rfl | hc
  · exact h1 c hc
  · decide
  · have := decStr_attr k c hc
    simp only [attrChar, Bool.and_eq_true] at this
    exact this.1.1.1

theorem zip_rename {l : List (Val Cls)} {names : List Name} (h : names.length = l.length) (ev : Swc.Event) :
    List.zipWith (fun x (e : Swc.Event) => setName e.name x) l (Swc.rename (l.map oldEvent) names ++ [ev]) =
      List.zipWith (fun x n => setName n x) l names := by
  unfold Swc.rename
  induction l generalizing names with
  | nil => simp
  | cons x l ih =>
    cases names with
    | nil => simp at h
    | cons n names =>
      simp only [List.length_cons, Nat.add_right_cancel_iff] at h
      simp only [List.map_cons, List.zipWith_cons_cons, List.cons_append, ih h]

theorem zip_self {l : List (Val Cls)} (h : ∀ x ∈ l, EventOk x) :
    List.zipWith (fun x n => setName n x) l (l.map fun x => (shortName x).toList) = l := by
  induction l with
  | nil => rfl
  | cons x l ih =>
    obtain ⟨c, -, -, h2, h3⟩ := event_entry (h x (by simp))
    rw [List.map_cons, List.zipWith_cons_cons, setName_self h2 h3 (entry_named (h x (by simp))),
      ih fun y hy => h y (by simp [hy])]

theorem setName_ok {x : Val Cls} (h : EventOk x) {n : Name} (hn : n ≠ [])
    (hp : plainText (String.ofList n) = true) : EventOk (setName n x) := by
  obtain ⟨c, h1, h2, h3, h4⟩ := event_entry h
  have := setName_wf h2 h3 h4 hn hp
  exact ⟨⟨_, h1, this.1⟩, this.2⟩

theorem name_short {x : Val Cls} (h : EventOk x) (n : Name) :
    elemName x = some (String.ofList n) ↔ (shortName x).toList = n := by
  rw [(entry_named h).name, Option.some.injEq]
  constructor
  · intro e; rw [e]; simp
  · intro e; rw [← e]; simp

/-- The list of the other events afterwards. -/
theorem events_after {D : Digits} {l : List (Val Cls)} (h : ∀ x ∈ l, EventOk x) {base u : Name}
    (hp : NameOk base) {names : List Name}
    (hu : makeUnique D (l.map fun x => (shortName x).toList) base = some (names, u)) :
    ∃ l', List.zipWith (fun x n => setName n x) l names = l' ∧ names.length = l.length ∧
      (∀ x ∈ l', EventOk x) ∧
      ((∀ x ∈ l, elemName x ≠ some (String.ofList base)) → l' = l) ∧
      ((∃ x ∈ l, elemName x = some (String.ofList base)) →
        OneRenamed (String.ofList base) (String.ofList (numbered base 0)) l l') ∧
      (∀ x ∈ l', elemName x ≠ some (String.ofList u)) ∧ (∀ x ∈ l', ∃ y ∈ l, ∃ n, x = setName n y) ∧
      ((u = base ∧ ∀ x ∈ l, elemName x ≠ some (String.ofList base)) ∨
        ∃ k, u = numbered base (k + 1)) := by
  obtain ⟨n1, u1, e1, h1, h2, h3⟩ := C10_effect_partial D (l.map fun x => (shortName x).toList) base hp.2.1
  obtain ⟨n2, u2, e2, h4⟩ := C10_fresh_partial D (l.map fun x => (shortName x).toList) base hp.2.1
  rw [hu] at e1 e2
  cases e1
  cases e2
  have hmem : base ∈ (l.map fun x => (shortName x).toList) ↔ ∃ x ∈ l, elemName x = some (String.ofList base) := by
    rw [List.mem_map]
    constructor
    · rintro ⟨x, hx, he⟩; exact ⟨x, hx, (name_short (h x hx) base).2 he⟩
    · rintro ⟨x, hx, he⟩; exact ⟨x, hx, (name_short (h x hx) base).1 he⟩
  have hnone : (∀ x ∈ l, elemName x ≠ some (String.ofList base)) ↔
      base ∉ l.map fun x => (shortName x).toList := by
    rw [hmem]
    constructor
    · rintro h5 ⟨x, hx, he⟩; exact h5 x hx he
    · intro h5 x hx he; exact h5 ⟨x, hx, he⟩
  by_cases hb : base ∈ (l.map fun x => (shortName x).toList)
  · obtain ⟨p, s, e3, e4, rfl⟩ := h2 hb
    obtain ⟨l1, l2, rfl, rfl, e6⟩ := List.map_eq_append_iff.1 e3
    obtain ⟨x, l3, rfl, e7, rfl⟩ := List.map_eq_cons_iff.1 e6
    have o1 : ∀ y ∈ l1, EventOk y := fun y hy => h y (by simp [hy])
    have o2 : EventOk x := h x (by simp)
    have o3 : ∀ y ∈ l3, EventOk y := fun y hy => h y (by simp [hy])
    have hz : List.zipWith (fun x n => setName n x) (l1 ++ x :: l3)
        (l1.map (fun x => (shortName x).toList) ++ numbered base 0 :: l3.map fun x => (shortName x).toList) =
        l1 ++ setName (numbered base 0) x :: l3 := by
      rw [List.zipWith_append (by simp), List.zipWith_cons_cons, zip_self o1, zip_self o3]
    obtain ⟨q1, q2⟩ := numbered_ok hp 0
    have hren := setName_renamed (entry_named o2) (numbered base 0)
    have all : ∀ y ∈ l1 ++ setName (numbered base 0) x :: l3, EventOk y := by
      intro y hy
      simp only [List.mem_append, List.mem_cons] at hy
      rcases hy with hy | rfl | hy
      · exact o1 y hy
      · exact setName_ok o2 q1 q2
      · exact o3 y hy
    refine ⟨_, hz, by simp, all, fun hn => absurd hb (hnone.1 hn), fun _ => ⟨l1, x, _, l3, rfl, rfl,
      (name_short o2 base).2 e7, fun y hy he => e4 (List.mem_map.2 ⟨y, hy, (name_short (o3 y hy) base).1 he⟩),
      hren⟩, ?_, ?_, ?_⟩
    · intro y hy he
      simp only [List.mem_append, List.mem_cons] at hy
      refine h4 ?_
      simp only [List.mem_append, List.mem_cons, List.mem_map]
      rcases hy with hy | rfl | hy
      · exact .inl ⟨y, hy, (name_short (o1 y hy) u).1 he⟩
      · rw [hren.2.1, Option.some.injEq] at he
        have := congrArg String.toList he
        simp only [String.toList_ofList] at this
        exact .inr (.inl this.symm)
      · exact .inr (.inr ⟨y, hy, (name_short (o3 y hy) u).1 he⟩)
    · have self : ∀ y, EventOk y → ∃ n, y = setName n y := by
        intro y hy
        obtain ⟨c, -, -, g2, g3⟩ := event_entry hy
        exact ⟨_, (setName_self g2 g3 (entry_named hy)).symm⟩
      intro y hy
      simp only [List.mem_append, List.mem_cons] at hy
      rcases hy with hy | rfl | hy
      · exact ⟨y, by simp [hy], self y (o1 y hy)⟩
      · exact ⟨x, by simp, _, rfl⟩
      · exact ⟨y, by simp [hy], self y (o3 y hy)⟩
    · rcases h3 with ⟨-, h3⟩ | h3
      · exact absurd hb h3
      · exact .inr h3
  · have e3 := h1 hb
    subst e3
    refine ⟨_, zip_self h, by simp, h, fun _ => rfl, fun hn => absurd (hmem.2 hn) hb, ?_, ?_, ?_⟩
    · intro y hy he
      exact h4 (List.mem_map.2 ⟨y, hy, (name_short (h y hy) u).1 he⟩)
    · intro y hy
      obtain ⟨c, -, -, g2, g3⟩ := event_entry (h y hy)
      exact ⟨y, hy, _, (setName_self g2 g3 (entry_named (h y hy))).symm⟩
    · rcases h3 with h3 | h3
      · exact .inl ⟨h3.1, hnone.2 h3.2⟩
      · exact .inr h3

/-! ### Areas -/

theorem areas_fields_append {c : Cls} {a b : List (String × Val Cls)} (ha : areasNamedFields c a = true)
    (hb : areasNamedFields c b = true) : areasNamedFields c (a ++ b) = true := by
  induction a with
  | nil => exact hb
  | cons p a ih =>
    simp only [areasNamedFields, Bool.and_eq_true, List.cons_append] at ha ⊢
    exact ⟨ha.1, ih ha.2⟩

theorem areas_ref {c : Cls} (hc : c ≠ .RunnableEntity) (a : String) (r : Option RefObj) :
    areasNamedFields c (refAttr a r) = true := by
  cases r <;> simp [refAttr, areasNamedFields, areasNamed, hc]

theorem areas_mode (ports : List Swc.EvPort) (m : String × Option String × String) :
    areasNamed (modeObj ports m) = true := by
  unfold modeObj
  simp only [areasNamed]
  exact areas_fields_append (areas_fields_append (by simp [areasNamedFields, areasNamed, reqRef])
    (areas_ref (by simp) _ _)) (by simp [areasNamedFields, areasNamed])

theorem areas_event (ports : List Swc.EvPort) (e : Swc.Event) : areasNamed (eventObj ports e) = true := by
  have hc : kindCls e.kind ≠ .RunnableEntity := by cases e.kind <;> simp [kindCls]
  unfold eventObj
  generalize kindCls e.kind = c at *
  simp only [areasNamed]
  refine areas_fields_append (areas_fields_append (by simp [areasNamedFields, areasNamed])
    (areas_ref hc _ _)) ?_
  cases e.target with
  | nothing => rfl
  | data p x => simp [targetFields, areasNamedFields, areasNamed, reqRef, hc]
  | operation p x => simp [targetFields, areasNamedFields, areasNamed, provRef, hc]
  | modeGroup p g =>
    have := areas_fields_append (c := .PModeGroupInAtomicSwcInstanceRef)
      (a := [("context_port", provRef ports p)]) (by simp [areasNamedFields, areasNamed, provRef])
      (areas_ref (by simp) "target_mode_group" (groupRef g))
    simp only [targetFields, areasNamedFields, areasNamed, this, hc, false_and, if_false, Bool.and_true]
  | modes a l =>
    have : areasNamedList (l.map (modeObj ports)) = true := by
      induction l with
      | nil => rfl
      | cons m l ih => rw [List.map_cons, areasNamedList, areas_mode, ih]; rfl
    cases a <;> simp [targetFields, actAttr, areasNamedFields, areasNamed, this, hc]
  | timing p o => cases p <;> cases o <;> simp [targetFields, numAttr, areasNamedFields, areasNamed, hc]

theorem areas_each {l : List (Val Cls)} : areasNamedList l = true ↔ ∀ x ∈ l, areasNamed x = true := by
  induction l with
  | nil => simp [areasNamedList]
  | cons x l ih => simp [areasNamedList, ih]

end Verif.Codec.Event
