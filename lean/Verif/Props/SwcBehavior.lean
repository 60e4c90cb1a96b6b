import Verif.Swc.Behavior
/-
C36, C37: runnables with exclusive areas, port options (element.py 7978-8049, 8477-8549).
-/
set_option linter.unusedSimpArgs false
set_option linter.unusedVariables false
namespace Verif.Props.SwcBehavior
open Verif.Py Verif.Swc

/-! ### Specification -/

/-- The argument consists of names: one string, or a list or other iterable of strings. -/
inductive Names : CanArg → List String → Prop where
  | one (s : String) : Names (.single (.str s)) [s]
  | list (l : List String) : Names (.list (l.map .str)) l
  | iter (l : List String) : Names (.iter (l.map .str)) l

/-- The argument contains the string `n`. -/
inductive Mentions : CanArg → String → Prop where
  | one (s : String) : Mentions (.single (.str s)) s
  | list (l : List CanItem) (s : String) : .str s ∈ l → Mentions (.list l) s
  | iter (l : List CanItem) (s : String) : .str s ∈ l → Mentions (.iter l) s

/-- The areas are part of a package: each has the behaviour's path and its own name as reference. -/
def AreasAt (base : String) (areas : List Area) : Prop :=
  ∀ a ∈ areas, a.ref = some (base ++ "/" ++ a.name)

/-- The ports are part of a package: the component's path and a name without '/'. -/
def PortsAt (base : String) (ports : List ApiPort) : Prop :=
  ∀ p ∈ ports, p.ref = some (base ++ "/" ++ p.name) ∧ '/' ∉ p.name.toList

/-! ### Lemmas -/

theorem mem_strItems (l : List CanItem) (s : String) : s ∈ strItems l ↔ CanItem.str s ∈ l := by
  induction l with
  | nil => simp [strItems]
  | cons i l ih => cases i <;> simp [strItems, ih]

theorem mentions_iff (arg : CanArg) (s : String) : s ∈ areaNames arg ↔ Mentions arg s := by
  constructor
  · intro h
    match arg, h with
    | .single (.str t), h => simp [areaNames] at h; subst h; exact .one _
    | .list l, h => exact .list l s ((mem_strItems l s).mp h)
    | .iter l, h => exact .iter l s ((mem_strItems l s).mp h)
  · intro h
    cases h with
    | one => simp [areaNames]
    | list l _ h => exact (mem_strItems l s).mpr h
    | iter l _ h => exact (mem_strItems l s).mpr h

theorem strItems_map (l : List String) : strItems (l.map .str) = l := by
  induction l with
  | nil => rfl
  | cons a l ih => simp [strItems, ih]

theorem names_eq {arg : CanArg} {l : List String} (h : Names arg l) : areaNames arg = l := by
  cases h with
  | one => rfl
  | list => exact strItems_map _
  | iter => exact strItems_map _

theorem append_refs (base : String) (l : List Area) (h : AreasAt base l) :
    appendEntries (l.map fun a => .ref a.ref) = .ok (l.map fun a => base ++ "/" ++ a.name) := by
  induction l with
  | nil => rfl
  | cons a l ih =>
    have ha := h a (by simp)
    have hl : AreasAt base l := fun b hb => h b (by simp [hb])
    simp [appendEntries, ha, ih hl]

/-! ### C36 -/

/-- **C36**, either or: whatever the arguments, either one runnable is added (at the end) and
returned, or an exception is raised and the runnables are what they were. -/
theorem C36_all_or_nothing (areas : List Area) (rs : List Runnable) (name : String)
    (symbol : Option String) (arg : CanArg) (o : Others) :
    (∃ r, createRunnable areas rs name symbol arg o = (rs ++ [r], .ok r) ∧ r.name = name ∧
      r.symbol = (if symbol = some "" then some name else symbol)) ∨
    (∃ e, createRunnable areas rs name symbol arg o = (rs, .error e)) := by
  unfold createRunnable
  dsimp only
  split
  · exact .inr ⟨_, rfl⟩
  · split
    · exact .inr ⟨_, rfl⟩
    · split
      · exact .inr ⟨_, rfl⟩
      · split
        · exact .inr ⟨_, rfl⟩
        · exact .inl ⟨_, rfl, rfl, rfl⟩

/-- **C36**, unknown names: if the argument mentions a string that names no area of the behaviour, it
is a ValueError and no runnable is added. -/
theorem C36_unknown_rejected (areas : List Area) (rs : List Runnable) (name : String)
    (symbol : Option String) (arg : CanArg) (o : Others) (n : String) (hn : Mentions arg n)
    (hu : ∀ a ∈ areas, a.name ≠ n) :
    createRunnable areas rs name symbol arg o = (rs, .error .valueError) := by
  have hm := (mentions_iff arg n).mpr hn
  have h0 : areaNames arg ≠ [] := by intro h; rw [h] at hm; cases hm
  have h1 : ¬ ((areaNames arg).all (fun n => areas.any fun a => a.name = n) = true) := by
    intro h
    rw [List.all_eq_true] at h
    have := h n hm
    simp at this
    obtain ⟨a, ha, hna⟩ := this
    exact hu a ha hna
  have : areaEntries areas arg = .error .valueError := by
    simp only [areaEntries, h0, if_false, h1]
    rfl
  simp [createRunnable, this]

/-- **C36**, known names: with one or more names, all of areas of a behaviour in a package, and no
other argument refused, one runnable is added; the areas it references are exactly the named ones,
none of them twice if the behaviour's areas have different names. -/
theorem C36_exactly_named (base : String) (areas : List Area) (rs : List Runnable) (name : String)
    (symbol : Option String) (arg : CanArg) (names : List String) (hn : Names arg names)
    (h0 : names ≠ []) (hat : AreasAt base areas) (hk : ∀ n ∈ names, ∃ a ∈ areas, a.name = n) :
    ∃ r, createRunnable areas rs name symbol arg {} = (rs ++ [r], .ok r) ∧
      (∀ ref, ref ∈ r.areas ↔ ∃ n ∈ names, ref = base ++ "/" ++ n) ∧
      ((areas.map Area.name).Nodup → r.areas.Nodup) := by
  have he := names_eq hn
  have h1 : names.all (fun n => areas.any fun a => a.name = n) = true := by
    rw [List.all_eq_true]
    intro n hn
    obtain ⟨a, ha, hna⟩ := hk n hn
    simp only [List.any_eq_true, decide_eq_true_eq]
    exact ⟨a, ha, hna⟩
  have h2 : areaEntries areas arg = .ok ((areas.filter fun a => a.name ∈ names).map fun a => .ref a.ref) := by
    simp only [areaEntries, he, h0, if_false, h1, if_true]
  have hat' : AreasAt base (areas.filter fun a => a.name ∈ names) :=
    fun a ha => hat a (List.mem_filter.mp ha).1
  refine ⟨⟨name, if symbol = some "" then some name else symbol,
    (areas.filter fun a => a.name ∈ names).map fun a => base ++ "/" ++ a.name⟩, ?_, ?_, ?_⟩
  · simp only [createRunnable, h2, append_refs base _ hat']
  · intro ref
    simp only [List.mem_map, List.mem_filter, decide_eq_true_eq]
    constructor
    · rintro ⟨a, ⟨_, hm⟩, rfl⟩; exact ⟨a.name, hm, rfl⟩
    · rintro ⟨n, hm, rfl⟩
      obtain ⟨a, ha, rfl⟩ := hk n hm
      exact ⟨a, ⟨ha, hm⟩, rfl⟩
  · intro hnd
    have hf : ((areas.filter fun a => a.name ∈ names).map Area.name).Nodup :=
      hnd.sublist (List.filter_sublist.map _)
    have : ((areas.filter fun a => a.name ∈ names).map fun a => base ++ "/" ++ a.name) =
        ((areas.filter fun a => a.name ∈ names).map Area.name).map fun n => base ++ "/" ++ n := by
      simp [List.map_map]
    dsimp only
    rw [this]
    refine List.Pairwise.map _ ?_ hf
    intro a b hab h
    apply hab
    have h := congrArg String.toList h
    simp only [String.toList_append] at h
    exact String.toList_injective (List.append_cancel_left h)

/-! ### C37 -/

theorem mem_insertBy (key : ApiPort → String) (p q : ApiPort) (l : List ApiPort) :
    q ∈ insertBy key p l ↔ q = p ∨ q ∈ l := by
  induction l with
  | nil => simp [insertBy]
  | cons a l ih =>
    simp only [insertBy]
    split
    · simp
    · simp only [List.mem_cons, ih]; grind

theorem mem_foldl_insert (key : ApiPort → String) (q : ApiPort) (l acc : List ApiPort) :
    q ∈ l.foldl (fun acc p => insertBy key p acc) acc ↔ q ∈ l ∨ q ∈ acc := by
  induction l generalizing acc with
  | nil => simp
  | cons a l ih => simp only [List.foldl_cons, ih, mem_insertBy, List.mem_cons]; grind

theorem mem_sortPorts (lower : String → String) (q : ApiPort) (l : List ApiPort) :
    q ∈ sortPorts lower l ↔ q ∈ l := by simp [sortPorts, mem_foldl_insert]

theorem split_last (a b : List Char) (h : '/' ∉ b) : (splitL '/' (a ++ '/' :: b)).getLast? = some b := by
  induction a with
  | nil => simp [splitL, splitL_no_sep _ _ h]
  | cons c a ih =>
    simp only [List.cons_append, splitL]
    split
    · rw [List.getLast?_cons_of_ne_nil (splitL_ne_nil _ _)]; exact ih
    · split
      · rename_i he; rw [he] at ih; cases ih
      · rename_i w ws he
        rw [he] at ih
        cases ws with
        | nil =>
          exfalso
          simp at ih
          subst ih
          have hm : ∀ (x : List Char), '/' ∈ x → ∀ w, splitL '/' x ≠ [w] := by
            intro x hx w hw
            have hs := splitL_append '/' (partL '/' x).1 (partL '/' x).2 (not_mem_partL_fst _ _)
            rcases partL_spec '/' x with ⟨_, _, hn⟩ | hx'
            · exact hn hx
            · rw [← hx', hw] at hs
              simp at hs
              exact splitL_ne_nil _ _ hs.2
          exact hm _ (by simp) _ he
        | cons w' ws => simpa [List.getLast?_cons_cons] using ih

theorem lastSegment_path (base name : String) (h : '/' ∉ name.toList) :
    lastSegment (base ++ "/" ++ name) = name := by
  have := split_last base.toList name.toList h
  have e : (base ++ "/" ++ name).toList = base.toList ++ '/' :: name.toList := by
    simp [String.toList_append]
  simp [lastSegment, e, List.getLastD_eq_getLast?, this, String.ofList_toList]

theorem keys_dictSet {β : Type} (d : Dict β) (k : String) (v : β) (h : (d.map Prod.fst).Nodup) :
    ((dictSet d k v).map Prod.fst).Nodup ∧ ∀ k', k' ∈ (dictSet d k v).map Prod.fst ↔ k' = k ∨ k' ∈ d.map Prod.fst := by
  induction d with
  | nil => simp [dictSet]
  | cons p d ih =>
    obtain ⟨a, b⟩ := p
    simp only [List.map_cons, List.nodup_cons] at h
    by_cases hk : a = k
    · subst hk
      simp [dictSet]
      simpa using h
    · have := ih h.2
      simp only [dictSet, hk, if_false, List.map_cons, List.nodup_cons, List.mem_cons, this.2]
      refine ⟨⟨?_, this.1⟩, ?_⟩
      · rintro (h1 | h1)
        · exact (by first | exact h1.elim | exact hk h1)
        · exact h.1 h1
      · intro k'; grind

theorem loop_spec {α : Type} (base : String) (want : String → Bool) (o : α) (d : Dict (ApiOption α))
    (l : List ApiPort) (hl : PortsAt base l) :
    ∃ d', optionLoop want o none d l = (d', .ok ()) ∧
      (∀ k, dictGet d' k = if (∃ p ∈ l, p.name = k) ∧ want k = true then some ⟨base ++ "/" ++ k, o⟩
        else dictGet d k) ∧
      ((d.map Prod.fst).Nodup → (d'.map Prod.fst).Nodup ∧
        ∀ k, k ∈ d'.map Prod.fst ↔ ((∃ p ∈ l, p.name = k) ∧ want k = true) ∨ k ∈ d.map Prod.fst) := by
  induction l generalizing d with
  | nil => exact ⟨d, rfl, by simp, by simp⟩
  | cons p l ih =>
    have hp := hl p (by simp)
    have hl' : PortsAt base l := fun q hq => hl q (by simp [hq])
    cases hw : want p.name with
    | false =>
      obtain ⟨d', h1, h2, h3⟩ := ih d hl'
      refine ⟨d', by simp [optionLoop, hw, h1], ?_, ?_⟩
      · intro k
        rw [h2]
        by_cases hk : p.name = k
        · subst hk; simp [hw]
        · simp [hk]
      · intro hd
        refine ⟨(h3 hd).1, ?_⟩
        intro k
        rw [(h3 hd).2]
        by_cases hk : p.name = k
        · subst hk; simp [hw]
        · simp [hk]
    | true =>
      obtain ⟨d', h1, h2, h3⟩ := ih (dictSet d p.name ⟨base ++ "/" ++ p.name, o⟩) hl'
      refine ⟨d', by simp [optionLoop, hw, hp.1, lastSegment_path _ _ hp.2, h1], ?_, ?_⟩
      · intro k
        rw [h2, dictGet_set]
        by_cases hk : p.name = k
        · subst hk; simp [hw]
        · simp [hk]
      · intro hd
        have hset := keys_dictSet d p.name ⟨base ++ "/" ++ p.name, o⟩ hd
        refine ⟨(h3 hset.1).1, ?_⟩
        intro k
        rw [(h3 hset.1).2, hset.2]
        by_cases hk : p.name = k
        · subst hk; simp [hw]
        · have : ¬ k = p.name := fun h => hk h.symm
          simp [hk, this]

theorem create_spec {α : Type} (lower : String → String) (base : String) (ports : List ApiPort)
    (d : Dict (ApiOption α)) (arg : NameArg) (o : α) (names : List (Option String))
    (hp : PortsAt base ports) (hn : wantedPorts ports arg = some names) :
    ∃ d', (createPortOptions lower ports d arg o none) =
        (d', if ∀ n ∈ names, ∃ p ∈ ports, some p.name = n then .ok () else .error .valueError) ∧
      (∀ k, dictGet d' k = if (∃ p ∈ ports, p.name = k) ∧ some k ∈ names then some ⟨base ++ "/" ++ k, o⟩
        else dictGet d k) ∧
      ((d.map Prod.fst).Nodup → (d'.map Prod.fst).Nodup ∧
        ∀ k, k ∈ d'.map Prod.fst ↔ ((∃ p ∈ ports, p.name = k) ∧ some k ∈ names) ∨ k ∈ d.map Prod.fst) := by
  by_cases h0 : names = []
  · subst h0
    exact ⟨d, by simp [createPortOptions, hn], by simp, by simp⟩
  · have hs : PortsAt base (sortPorts lower ports) := fun p h => hp p ((mem_sortPorts _ _ _).mp h)
    obtain ⟨d', h1, h2, h3⟩ := loop_spec base (fun n => some n ∈ names) o d _ hs
    simp only [mem_sortPorts, decide_eq_true_eq] at h2 h3
    refine ⟨d', ?_, h2, h3⟩
    simp only [createPortOptions, hn, h0, if_false, h1]
    have : (names.all (fun n => ports.any fun p => some p.name = n) = true) ↔
        ∀ n ∈ names, ∃ p ∈ ports, some p.name = n := by
      simp [List.all_eq_true, List.any_eq_true]
    by_cases hall : ∀ n ∈ names, ∃ p ∈ ports, some p.name = n
    · rw [if_pos hall, if_pos (this.mpr hall)]
    · rw [if_neg hall, if_neg (fun h => hall (this.mp h))]

/-- **C37**, "*": afterwards every port has its option, under its name, with the given values; other
entries are as before; and a behaviour that had no options has exactly one for each port. -/
theorem C37_star {α : Type} (lower : String → String) (base : String) (ports : List ApiPort)
    (d : Dict (ApiOption α)) (o : α) (hp : PortsAt base ports) :
    ∃ d', createPortOptions lower ports d (.str "*") o none = (d', .ok ()) ∧
      (∀ p ∈ ports, dictGet d' p.name = some ⟨base ++ "/" ++ p.name, o⟩) ∧
      (∀ k, (∀ p ∈ ports, p.name ≠ k) → dictGet d' k = dictGet d k) ∧
      (d = [] → (ports.map ApiPort.name).Nodup → (d'.map Prod.fst).Perm (ports.map ApiPort.name)) := by
  obtain ⟨d', h1, h2, h3⟩ := create_spec lower base ports d (.str "*") o
    (ports.map fun p => some p.name) hp (by simp [wantedPorts])
  refine ⟨d', ?_, ?_, ?_, ?_⟩
  · rw [h1, if_pos]
    intro n hn
    obtain ⟨p, hp, rfl⟩ := List.mem_map.mp hn
    exact ⟨p, hp, rfl⟩
  · intro p hp
    rw [h2, if_pos]
    exact ⟨⟨p, hp, rfl⟩, List.mem_map.mpr ⟨p, hp, rfl⟩⟩
  · intro k hk
    rw [h2, if_neg]
    rintro ⟨⟨p, hp, he⟩, _⟩
    exact hk p hp he
  · rintro rfl hnd
    obtain ⟨h4, h5⟩ := h3 (by simp)
    rw [List.perm_ext_iff_of_nodup h4 hnd]
    intro k
    rw [h5]
    simp [List.mem_map]

/-- **C37**, explicit names: exactly the named ports of the component get the option, all other entries
are as before; it is a success if every name is a port's, and a ValueError otherwise. -/
theorem C37_names {α : Type} (lower : String → String) (base : String) (ports : List ApiPort)
    (d : Dict (ApiOption α)) (o : α) (arg : NameArg) (names : List String) (hp : PortsAt base ports)
    (ha : arg = .iter (names.map some) ∨ ∃ s, s ≠ "*" ∧ arg = .str s ∧ names = [s]) :
    ∃ d', createPortOptions lower ports d arg o none =
        (d', if ∀ n ∈ names, ∃ p ∈ ports, p.name = n then .ok () else .error .valueError) ∧
      (∀ p ∈ ports, p.name ∈ names → dictGet d' p.name = some ⟨base ++ "/" ++ p.name, o⟩) ∧
      (∀ k, (k ∉ names ∨ ∀ p ∈ ports, p.name ≠ k) → dictGet d' k = dictGet d k) := by
  have hw : wantedPorts ports arg = some (names.map some) := by
    rcases ha with rfl | ⟨s, hs, rfl, rfl⟩ <;> simp [wantedPorts, *]
  obtain ⟨d', h1, h2, _⟩ := create_spec lower base ports d arg o _ hp hw
  refine ⟨d', ?_, ?_, ?_⟩
  · rw [h1]
    have : (∀ n ∈ names.map some, ∃ p ∈ ports, some p.name = n) ↔ ∀ n ∈ names, ∃ p ∈ ports, p.name = n := by
      simp [List.mem_map]
    by_cases h : ∀ n ∈ names, ∃ p ∈ ports, p.name = n
    · rw [if_pos h, if_pos (this.mpr h)]
    · rw [if_neg h, if_neg (fun x => h (this.mp x))]
  · intro p hp hm
    rw [h2, if_pos]
    exact ⟨⟨p, hp, rfl⟩, List.mem_map.mpr ⟨_, hm, rfl⟩⟩
  · intro k hk
    rw [h2, if_neg]
    rintro ⟨⟨p, hp, he⟩, hm⟩
    rcases hk with hk | hk
    · simp at hm; exact hk hm
    · exact hk p hp he

/-! ### Cases -/

def demoAreas : List Area := [⟨"A", some "/S/B/A"⟩, ⟨"C", some "/S/B/C"⟩]

example : AreasAt "/S/B" demoAreas := by
  intro a ha
  simp [demoAreas] at ha
  rcases ha with rfl | rfl <;> decide

example : createRunnable demoAreas [] "Run" (some "") (.list [.str "C", .str "A", .str "C"]) {} =
    ([⟨"Run", some "Run", ["/S/B/A", "/S/B/C"]⟩], .ok ⟨"Run", some "Run", ["/S/B/A", "/S/B/C"]⟩) := by decide

/-- **C36**, findings: references given together with names are dropped; in a behaviour that is in no
package known names are a TypeError; a second runnable of the same name is accepted. -/
theorem C36_findings :
    (createRunnable demoAreas [] "Run" none (.list [.str "C", .ref "/S/B/A"]) {}).1 =
      [⟨"Run", none, ["/S/B/C"]⟩] ∧
    createRunnable [⟨"A", none⟩] [] "Run" none (.single (.str "A")) {} = ([], .error .typeError) ∧
    (createRunnable demoAreas [⟨"Run", none, []⟩] "Run" none .none {}).1 =
      [⟨"Run", none, []⟩, ⟨"Run", none, []⟩] := by decide

def demoPorts : List ApiPort := [⟨"out", some "/S/out"⟩, ⟨"In", some "/S/In"⟩]

example : PortsAt "/S" demoPorts := by
  intro a ha
  simp [demoPorts] at ha
  rcases ha with rfl | rfl <;> decide

/-- Lower case, for the cases. -/
def asciiLower (s : String) : String := String.ofList (s.toList.map Char.toLower)

example : createPortOptions asciiLower demoPorts [] (.str "*") true none =
    ([("In", ⟨"/S/In", true⟩), ("out", ⟨"/S/out", true⟩)], .ok ()) := by decide +kernel

/-- **C37**, findings: when a name is unknown the ports named with it have already got their options;
"*" inside a list is an ordinary, unknown name. -/
theorem C37_findings :
    createPortOptions id demoPorts [] (.iter [some "In", some "Nope"]) true none =
      ([("In", ⟨"/S/In", true⟩)], .error .valueError) ∧
    createPortOptions id demoPorts [] (.iter [some "*"]) true none = ([], .error .valueError) := by decide +kernel

end Verif.Props.SwcBehavior
