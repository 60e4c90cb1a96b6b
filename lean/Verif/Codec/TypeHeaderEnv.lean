import Verif.Codec.TypeHeaderProof
/-
References lead back to the types they were taken from.
-/
set_option linter.unusedSimpArgs false
namespace Verif.Codec.TypeHeader
open Verif.Py Verif.Impl Verif.Impl.Spec Verif.Codec Verif.Codec.Find Verif.Codec.FindSpec
open Verif.Codec.Spec Verif.Pkg Verif.Pkg.Spec
open Verif.Codec.Owner (shortName refMethod clsOf)

/-! ### Names -/

theorem str_field {f : Field Cls} {s : String} (h : hasField tables f (.str s) = true) : s ≠ "" := by
  intro hs
  subst hs
  unfold hasField at h
  split at h
  · obtain ⟨a, -, ha⟩ := List.any_eq_true.1 h
    cases a <;> simp [hasS] at ha
  all_goals simp at h

theorem name_ne {c : Cls} {fs : List (String × Val Cls)} {n : String}
    (h : WellFormed c (.obj c fs)) (hn : Codec.nameOf fs = some n) : n ≠ "" := by
  have h1 := h.1
  simp only [hasS, Bool.and_eq_true] at h1
  unfold Codec.nameOf at hn
  split at hn
  · next s hs =>
    cases hn
    obtain ⟨f, -, hf⟩ := hasFields_get h1.2 hs
    exact str_field hf
  · cases hn

theorem pkg_name_ne {p : Pkg} {n : String} (h : WellFormedPkg p) (hn : p.name = some n) : n ≠ "" := by
  cases p with
  | mk hd es ps =>
    rw [WellFormedPkg] at h
    exact name_ne h.1 hn

theorem elem_name_ne {p : Pkg} {v : Val Cls} {n : String} (h : WellFormedPkg p) (hv : v ∈ p.elements)
    (hn : elemName v = some n) : n ≠ "" := by
  cases p with
  | mk hd es ps =>
    rw [WellFormedPkg] at h
    obtain ⟨c, -, hc⟩ := h.2.1 v hv
    cases v with
    | obj c' fs =>
      have : c' = c := by
        have := hc.1
        simp only [hasS, Bool.and_eq_true, decide_eq_true_eq] at this
        exact this.1.1
      subst this
      exact name_ne hc hn
    | _ => simp [elemName] at hn

/-! ### What is found is there -/

/-- The place is really there. -/
def There (ps : List Pkg) (acc : List String) : Place → Prop
  | .pkg way p => ∃ names, way = acc ++ names ∧ PackageAt ps names p ∧ ∀ n ∈ names, GoodName n
  | .element way v => ∃ names, way = acc ++ names ∧ ElementAt ps names v ∧ ∀ n ∈ names, GoodName n
  | .part way v _ => ∃ names, way = acc ++ names ∧ ElementAt ps names v ∧ ∀ n ∈ names, GoodName n

theorem pkg_more {ps : List Pkg} {q p : Pkg} {way : List String} (h : PackageAt ps way p) :
    PackageAt (q :: ps) way p := by
  cases h with
  | here h1 h2 => exact .here (List.mem_cons_of_mem _ h1) h2
  | inside h1 h2 h3 => exact .inside (List.mem_cons_of_mem _ h1) h2 h3

theorem elem_more {ps : List Pkg} {q : Pkg} {v : Val Cls} {way : List String}
    (h : ElementAt ps way v) : ElementAt (q :: ps) way v := by
  cases h with
  | mk h1 h2 h3 => exact .mk (pkg_more h1) h2 h3

theorem elem_into {ps : List Pkg} {p : Pkg} {n : String} {v : Val Cls} {way : List String}
    (hp : p ∈ ps) (hn : p.name = some n) (h : ElementAt p.packages way v) :
    ElementAt ps (n :: way) v := by
  cases h with
  | mk h1 h2 h3 => exact .mk (.inside hp hn h1) h2 h3

theorem there_more {ps : List Pkg} {q : Pkg} {acc : List String} {x : Place} (h : There ps acc x) :
    There (q :: ps) acc x := by
  cases x with
  | pkg way p => exact h.imp fun ns h => ⟨h.1, pkg_more h.2.1, h.2.2⟩
  | element way v => exact h.imp fun ns h => ⟨h.1, elem_more h.2.1, h.2.2⟩
  | part way v y => exact h.imp fun ns h => ⟨h.1, elem_more h.2.1, h.2.2⟩

theorem there_into {ps : List Pkg} {p : Pkg} {n : String} {acc : List String} (hp : p ∈ ps)
    (hn : p.name = some n) (hg : GoodName n) {x : Place}
    (h : There p.packages (acc ++ [n]) x) : There ps acc x := by
  cases x with
  | pkg way q =>
    obtain ⟨ns, rfl, ha, hs⟩ := h
    exact ⟨n :: ns, by simp, .inside hp hn ha, by simpa [hg] using hs⟩
  | element way v =>
    obtain ⟨ns, rfl, ha, hs⟩ := h
    exact ⟨n :: ns, by simp, elem_into hp hn ha, by simpa [hg] using hs⟩
  | part way v y =>
    obtain ⟨ns, rfl, ha, hs⟩ := h
    exact ⟨n :: ns, by simp, elem_into hp hn ha, by simpa [hg] using hs⟩

theorem named_some {l : List (Val Cls)} {n : String} {v : Val Cls} (h : named l n = some v) :
    v ∈ l ∧ elemName v = some n := by
  unfold named at h
  exact ⟨List.mem_of_find?_eq_some h, by simpa using List.find?_some h⟩

mutual
theorem locatePkg_there : ∀ (acc : List String) (ps : List Pkg) (p : Pkg) (n : String)
    (ref : List Char) (x : Place), p ∈ ps → p.name = some n → GoodName n → WellFormedPkg p →
    locatePkg (acc ++ [n]) p ref = .ok (some x) → There ps acc x
  | acc, qs, .mk h es ps, n, ref, x => by
    intro hp hn hg hw hx
    rw [locatePkg] at hx
    have hsl : '/' ∉ (String.ofList (partL '/' (stripLead '/' ref)).1).toList := by
      simpa using not_mem_partL_fst '/' (stripLead '/' ref)
    cases hm : named es (String.ofList (partL '/' (stripLead '/' ref)).1) with
    | none =>
      rw [hm] at hx
      refine there_into hp hn hg (locatePkgs_there _ ps _ x ?_ hsl hx)
      rw [WellFormedPkg] at hw
      exact hw.2.2.2
    | some v =>
      rw [hm] at hx
      obtain ⟨h1, h2⟩ := named_some hm
      have hgm : GoodName (String.ofList (partL '/' (stripLead '/' ref)).1) :=
        ⟨elem_name_ne hw h1 h2, hsl⟩
      have hat : ElementAt qs ([n] ++ [String.ofList (partL '/' (stripLead '/' ref)).1]) v :=
        .mk (.here hp hn) h1 h2
      simp only at hx
      split at hx
      · cases hf : elemFind v (partL '/' (stripLead '/' ref)).2 with
        | error e => rw [hf] at hx; cases hx
        | ok r =>
          cases r with
          | none => rw [hf] at hx; cases hx
          | some y =>
            rw [hf] at hx
            cases hx
            exact ⟨_, by simp, hat, by simp [hg, hgm]⟩
      · cases hx
        exact ⟨_, by simp, hat, by simp [hg, hgm]⟩
theorem locatePkgs_there : ∀ (acc : List String) (ps : List Pkg) (parts : List Char × List Char)
    (x : Place), WellFormedPkgs ps → '/' ∉ (String.ofList parts.1).toList →
    locatePkgs acc ps parts = .ok (some x) → There ps acc x
  | _, [], _, _ => by intro _ _ h; cases h
  | acc, p :: ps, parts, x => by
    intro hw hsl hx
    rw [WellFormedPkgs] at hw
    rw [locatePkgs] at hx
    split at hx
    · next hn =>
      have hg : GoodName (String.ofList parts.1) := ⟨pkg_name_ne hw.1 hn, hsl⟩
      split at hx
      · exact locatePkg_there acc (p :: ps) p _ _ x (by simp) hn hg hw.1 hx
      · cases hx
        exact ⟨[_], rfl, .here (by simp) hn, by simpa using hg⟩
    · exact there_more (locatePkgs_there acc ps parts x hw.2 hsl hx)
end

/-! ### What is there is found -/

theorem locatePkgs_mem {ps : List Pkg} {p : Pkg} {n : String} (hn : (ps.map Pkg.name).Nodup)
    (hp : p ∈ ps) (hm : p.name = some n) (acc : List String) (t : List Char) :
    locatePkgs acc ps (n.toList, t) =
      if t ≠ [] then locatePkg (acc ++ [n]) p t else .ok (some (.pkg (acc ++ [n]) p)) := by
  induction ps with
  | nil => simp at hp
  | cons q ps ih =>
    simp only [List.map_cons, List.nodup_cons] at hn
    rw [locatePkgs]
    simp only [String.ofList_toList]
    rcases List.mem_cons.1 hp with rfl | hp
    · rw [if_pos hm]
    · have : ¬ q.name = some n := fun h => hn.1 (by rw [h, ← hm]; exact List.mem_map_of_mem hp)
      rw [if_neg this]
      exact ih hn.2 hp

/-- Down to a package, and on with any text. -/
theorem locate_package {ps : List Pkg} {way : List String} {p : Pkg} (h : PackageAt ps way p) :
    WellFormedPkgs ps → (ps.map Pkg.name).Nodup → ∀ (acc rest : List String),
    (∀ n ∈ way, GoodName n) →
    locatePkgs acc ps (partL '/' (stripLead '/' (relRef (way ++ rest)).toList)) =
      if (relRef rest).toList = [] then .ok (some (.pkg (acc ++ way) p))
      else locatePkg (acc ++ way) p (relRef rest).toList := by
  induction h with
  | @here ps p n hp hn =>
    intro hw hd acc rest hg
    rw [List.singleton_append, rel_cons _ _ (hg n (by simp)), locatePkgs_mem hd hp hn]
    by_cases hr : (relRef rest).toList = []
    · rw [if_pos hr, if_neg (by simp [hr])]
    · rw [if_neg hr, if_pos hr]
  | @inside ps p q n way hp hn ha ih =>
    intro hw hd acc rest hg
    obtain ⟨h1, h2⟩ := wf_parts (wf_mem hw hp)
    have hd2 : (p.packages.map Pkg.name).Nodup := (List.nodup_append.1 h1).2.1
    have ih := ih h2 hd2 (acc ++ [n]) rest fun m hm => hg m (by simp [hm])
    obtain ⟨m, ms, hms, hmp⟩ : ∃ m ms, way = m :: ms ∧ some m ∈ p.packages.map Pkg.name := by
      cases ha with
      | here h1 h2 => exact ⟨_, _, rfl, List.mem_map.2 ⟨_, h1, h2⟩⟩
      | inside h1 h2 _ => exact ⟨_, _, rfl, List.mem_map.2 ⟨_, h1, h2⟩⟩
    have hgm : GoodName m := hg m (by simp [hms])
    have hne : (relRef (way ++ rest)).toList ≠ [] := by
      intro hc
      rw [hms] at hc
      simp [relRef, String.toList_append] at hc
      exact hgm.1 hc.1
    rw [List.cons_append, rel_cons _ _ (hg n (by simp)), locatePkgs_mem hd hp hn, if_pos hne]
    simp only [List.append_assoc, List.singleton_append] at ih
    rw [← ih]
    cases p with
    | mk hd' es qs =>
      rw [locatePkg, hms, List.cons_append, rel_cons m _ hgm]
      simp only [String.ofList_toList]
      have hno : named es m = none := named_none fun hmem =>
        (List.nodup_append.1 h1).2.2 _ hmem _ hmp rfl
      rw [hno]
      rfl

theorem rel_again {way rest : List String} (h : way ≠ []) (hg : ∀ n ∈ way, GoodName n) :
    stripLead '/' (relRef (way ++ rest)).toList = stripLead '/' (absRef (way ++ rest)).toList := by
  cases way with
  | nil => exact absurd rfl h
  | cons n way =>
    rw [abs_rel (by simp), List.cons_append, rel_strip _ _ (hg n (by simp))]

theorem way_ne {ps : List Pkg} {way : List String} {p : Pkg} (h : PackageAt ps way p) : way ≠ [] := by
  cases h <;> simp

/-- Down to an element, and on with any text. -/
theorem locate_element {ps : List Pkg} {way : List String} {v : Val Cls} (h : ElementAt ps way v)
    (hw : WellFormedPkgs ps) (hd : (ps.map Pkg.name).Nodup) (rest : List String)
    (hg : ∀ n ∈ way, GoodName n) :
    locate ps (absRef (way ++ rest)) =
      if (relRef rest).toList = [] then .ok (some (.element way v))
      else (elemFind v (relRef rest).toList).map fun r => r.map (.part way v) := by
  cases h with
  | @mk p way m v hp hv hm =>
    have hgm : GoodName m := hg m (by simp)
    rw [locate, ← rel_again (by simp) hg, List.append_assoc,
      locate_package hp hw hd [] ([m] ++ rest) (fun n hn => hg n (by simp [hn]))]
    have hwp : WellFormedPkg p := by
      clear hg hv hm
      induction hp with
      | here h1 _ => exact wf_mem hw h1
      | inside h1 _ _ ih =>
        obtain ⟨h2, h3⟩ := wf_parts (wf_mem hw h1)
        exact ih h3 (List.nodup_append.1 h2).2.1
    obtain ⟨h1, -⟩ := wf_parts hwp
    have hne : (relRef ([m] ++ rest)).toList ≠ [] := by
      intro hc
      simp [relRef, String.toList_append] at hc
      exact hgm.1 hc.1
    rw [if_neg hne]
    cases p with
    | mk hd' es qs =>
      rw [locatePkg, List.singleton_append, rel_cons m rest hgm]
      simp only [String.ofList_toList]
      have hes : named es m = some v := named_mem (List.nodup_append.1 h1).1 hv hm
      rw [hes]
      by_cases hr : (relRef rest).toList = []
      · rw [if_pos hr]
        simp [hr]
      · rw [if_neg hr]
        simp only
        rw [if_pos hr]
        simp

/-! ### The workspace of the implementation model -/

theorem typeOf_ref {ref : String} {v : Val Cls} {x : XElem} (h : typeOf ref v = .ok x) :
    x.ref = ref := by
  unfold typeOf at h
  split at h
  · cases h; rfl
  · cases h; rfl
  · split at h
    · cases h; rfl
    · cases h
  · cases h

theorem top_only {ps : List Pkg} {acc : List String} {s : List Char} {x : Place}
    (h : locatePkgs acc ps (s, []) = .ok (some x)) : ∃ way p, x = .pkg way p := by
  induction ps with
  | nil => cases h
  | cons p ps ih =>
    rw [locatePkgs] at h
    split at h
    · simp at h
      exact ⟨_, _, h.symm⟩
    · exact ih h

theorem get_of {ps : List Pkg} {r : String} {x : XElem} (h : envOf ps r = some x) :
    ∃ y, locate ps r = .ok (some y) ∧ foundAs y = .ok x := by
  simp only [Env.get, envOf] at h
  cases hl : locate ps r with
  | error e => rw [hl] at h; cases h
  | ok o =>
    cases o with
    | none => rw [hl] at h; cases h
    | some y =>
      rw [hl] at h
      cases hf : foundAs y with
      | error e => simp [hf, Except.map] at h
      | ok z =>
        simp [hf, Except.map] at h
        exact ⟨y, rfl, by rw [hf, h]⟩

theorem of_get {ps : List Pkg} {r : String} {x : XElem} {y : Place}
    (h : locate ps r = .ok (some y)) (hf : foundAs y = .ok x) : envOf ps r = some x := by
  simp only [Env.get, envOf, h, hf, Except.map]

/-- A type, or not. -/
theorem typeOf_noType {ref : String} {v : Val Cls} {x : XElem} (h : typeOf ref v = .ok x)
    (h1 : clsOf v ≠ some .SwBaseType) (h2 : clsOf v ≠ some .ImplementationDataType) : NoType x := by
  unfold typeOf at h
  split at h
  · exact absurd rfl h1
  · exact absurd rfl h2
  · split at h
    · cases h; exact ⟨_, _, rfl⟩
    · cases h
  · cases h

theorem partOf_noType {ref : String} {v y : Val Cls} {x : XElem} (h : partOf ref v y = .ok x) :
    NoType x ∧ (x.ref = "None" ∨ (clsOf v ≠ some .ImplementationDataType ∧
      x.ref = ref ++ "/" ++ shortName y)) := by
  unfold partOf at h
  split at h
  · cases h
  · split at h
    · cases h
    · split at h
      · cases h
        exact ⟨⟨_, _, rfl⟩, .inl rfl⟩
      · next hc =>
        cases h
        exact ⟨⟨_, _, rfl⟩, .inr ⟨hc, rfl⟩⟩

theorem elemFind_base {v x : Val Cls} {ref : List Char} (h : elemFind v ref = .ok (some x)) :
    clsOf v ≠ some .SwBaseType := by
  intro hc
  cases v with
  | obj c fs =>
    simp only [clsOf, Option.some.injEq] at hc
    subst hc
    cases h
  | _ => cases hc

mutual
theorem locatePkg_part : ∀ (acc : List String) (p : Pkg) (ref : List Char) (way : List String)
    (v x : Val Cls), locatePkg acc p ref = .ok (some (.part way v x)) →
    ∃ r, elemFind v r = .ok (some x)
  | acc, .mk h es ps, ref, way, v, x => by
    intro hx
    rw [locatePkg] at hx
    cases hm : named es (String.ofList (partL '/' (stripLead '/' ref)).1) with
    | none => rw [hm] at hx; exact locatePkgs_part acc ps _ way v x hx
    | some u =>
      rw [hm] at hx
      simp only at hx
      split at hx
      · cases hf : elemFind u (partL '/' (stripLead '/' ref)).2 with
        | error e => rw [hf] at hx; cases hx
        | ok r =>
          cases r with
          | none => rw [hf] at hx; cases hx
          | some y => rw [hf] at hx; cases hx; exact ⟨_, hf⟩
      · cases hx
theorem locatePkgs_part : ∀ (acc : List String) (ps : List Pkg) (parts : List Char × List Char)
    (way : List String) (v x : Val Cls), locatePkgs acc ps parts = .ok (some (.part way v x)) →
    ∃ r, elemFind v r = .ok (some x)
  | _, [], _, _, _, _ => by intro h; cases h
  | acc, p :: ps, parts, way, v, x => by
    intro hx
    rw [locatePkgs] at hx
    split at hx
    · split at hx
      · exact locatePkg_part _ p _ way v x hx
      · cases hx
    · exact locatePkgs_part acc ps parts way v x hx
end

/-- What is found in a workspace has a reference that leads back to it, if it is a type. -/
theorem env_ok {ps : List Pkg} (hw : WellFormedPkgs ps) (hd : (ps.map Pkg.name).Nodup) :
    EnvOk (envOf ps) := by
  intro r x hx
  obtain ⟨y, hl, hf⟩ := get_of hx
  have ht : There ps [] y := locatePkgs_there [] ps _ y hw (by
    simpa using not_mem_partL_fst '/' (stripLead '/' r.toList)) hl
  cases y with
  | pkg way p =>
    obtain ⟨ns, rfl, ha, hg⟩ := ht
    cases hf
    refine .inl (of_get (y := .pkg way p) ?_ rfl)
    have hne : way ≠ [] := by cases ha <;> simp
    have := locate_package ha hw hd [] [] hg
    simp only [List.append_nil, List.nil_append] at this
    have hs := rel_again (rest := []) hne hg
    rw [List.append_nil] at hs
    rw [XElem.ref, locate, ← hs, this]
    rfl
  | element way v =>
    obtain ⟨ns, rfl, ha, hg⟩ := ht
    simp only [foundAs, List.nil_append] at hf
    refine .inl (of_get (y := .element way v) ?_ hf)
    have := locate_element ha hw hd [] hg
    rw [List.append_nil] at this
    rw [typeOf_ref hf, this]
    rfl
  | part way v u =>
    obtain ⟨ns, rfl, ha, hg⟩ := ht
    simp only [foundAs, List.nil_append] at hf
    obtain ⟨hno, href⟩ := partOf_noType hf
    refine .inr ⟨hno, fun z hz => ?_⟩
    obtain ⟨w, hlw, hfw⟩ := get_of hz
    rcases href with href | ⟨hc, href⟩
    · rw [href] at hlw
      have : partL '/' (stripLead '/' "None".toList) = ("None".toList, []) := by decide
      rw [locate, this] at hlw
      obtain ⟨way, p, rfl⟩ := top_only hlw
      cases hfw
      exact ⟨_, _, rfl⟩
    · obtain ⟨r', hr'⟩ := locatePkgs_part [] ps _ _ _ _ hl
      have hb := elemFind_base hr'
      have he := locate_element ha hw hd [shortName u] hg
      have : absRef (way ++ [shortName u]) = absRef way ++ "/" ++ shortName u := by
        rw [absRef_append]
        simp [absRef_cons, absRef_nil, String.append_assoc]
      rw [this] at he
      rw [href, he] at hlw
      split at hlw
      · cases hlw
        exact typeOf_noType hfw hb hc
      · cases hq : elemFind v (relRef [shortName u]).toList with
        | error e => rw [hq] at hlw; cases hlw
        | ok o =>
          cases o with
          | none => rw [hq] at hlw; cases hlw
          | some q =>
            rw [hq] at hlw
            cases hlw
            exact (partOf_noType hfw).1

/-- Nothing is called "None". -/
theorem env_none {ps : List Pkg} (h : some "None" ∉ ps.map Pkg.name) : envOf ps "None" = none := by
  have : partL '/' (stripLead '/' "None".toList) = ("None".toList, []) := by decide
  have hl : ∀ acc, locatePkgs acc ps ("None".toList, []) = .ok none := by
    intro acc
    induction ps with
    | nil => rfl
    | cons p ps ih =>
      simp only [List.map_cons, List.mem_cons, not_or] at h
      rw [locatePkgs, if_neg (fun e => h.1 (by rw [e]; rfl))]
      exact ih h.2
  simp only [Env.get, envOf, locate, this, hl]

end Verif.Codec.TypeHeader
