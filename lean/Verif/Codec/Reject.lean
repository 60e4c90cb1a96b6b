import Verif.Codec.RejectSpec
import Verif.Codec.LoadBuild
import Verif.Codec.PatternProof
/-
Constructors reject nothing but what `rejected` lists.
-/
set_option linter.unusedSimpArgs false
set_option linter.unusedVariables false
namespace Verif.Codec.Reject
open Verif.Py Verif.Enums Verif.Num Verif.Xml Verif.Xml.Spec Verif.Codec.Spec Verif.Codec.Load
open Verif.Ref (RefObj construct DestArg refClasses)

/-! ### Static checks -/

/-- One of the types takes any string. -/
def takesStr (alts : List (STy Cls)) : Bool :=
  alts.contains .str || alts.contains .strNotInt

def takesInt (alts : List (STy Cls)) : Bool := alts.contains .int || alts.contains .numFloat

def takesFloat (alts : List (STy Cls)) : Bool :=
  alts.contains .float || alts.contains .castFloat || alts.contains .numFloat

/-- All values a conversion gives are of one of the types. -/
def convFit (alts : List (STy Cls)) : Conv → Bool
  | .text | .str => takesStr alts
  | .enum c => alts.contains (.enum c) || alts.contains (.member c)
  | .boolean => alts.contains .bool
  | .number | .numPlain => takesInt alts && takesFloat alts
  | .integer | .int => takesInt alts
  | .float | .castFloat => takesFloat alts
  | .posInt => takesInt alts || alts.contains .nat
  | .numVal => takesInt alts && takesFloat alts && alts.contains .radix
  | .intOrText | .int0OrText => takesInt alts && takesStr alts

/-- The result of the method. -/
def resFit (alts : List (STy Cls)) : RMethod Cls RM → Bool
  | .node c _ => alts.contains (.cls c)
  | .mixed c _ _ _ _ => alts.contains (.cls c)
  | .ref cls _ => alts.any fun a => match a with
    | .ref c => c = cls
    | .refTo c _ => c = cls
    | _ => false
  | .bad _ => true

/-- The value of an element with this tag. -/
def atomFit (alts : List (STy Cls)) (t : String) : RAtom RM → Bool
  | .conv c => convFit alts c
  | .meth m => resFit alts (rm m t)
  | .limit => alts.contains .limit

/-- The value of an element with any tag. -/
def atomFitAny (alts : List (STy Cls)) : RAtom RM → Bool
  | .conv c => convFit alts c
  | .meth m => !byTag m && resFit alts (rm m "")
  | .limit => alts.contains .limit

/-- `ctx` is the tag of the elements if it is known. -/
def altsFit (alts : List (STy Cls)) (ctx : Option String) (ralts : RAlts RM) : Bool :=
  ralts.all fun ta =>
    match ta.1, ctx with
    | some t, _ => atomFit alts t ta.2
    | none, some t => atomFit alts t ta.2
    | none, none => atomFitAny alts ta.2

/-- What the statement stores fits the argument. -/
def itemFit (f : Field Cls) : RItem RM → Bool
  | .text _ c => f.shape = .one && convFit f.alts c
  | .noKids _ => true
  | .attr _ _ c _ => f.shape = .one && convFit f.alts c
  | .required _ _ => f.shape = .one && takesStr f.alts
  | .one t _ .self ralts _ _ => f.shape = .one && altsFit f.alts (some t) ralts
  | .one _ _ .first ralts _ _ => f.shape = .one && altsFit f.alts none ralts
  | .one _ _ (.tag t) ralts _ _ => f.shape = .one && altsFit f.alts (some t) ralts
  | .many _ _ ralts _ _ => f.shape ≠ .one && altsFit f.alts none ralts
  | .flat _ ralts _ => f.shape ≠ .one && altsFit f.alts none ralts
  | .choice _ alts _ => f.shape = .one && alts.all fun ta => atomFit f.alts ta.1 ta.2
  | .admin => true

/-- The statement stores an integer that may be negative. -/
def isSize (f : Field Cls) : RItem RM → Bool
  | .one _ key .self [(none, .conv .int)] none false =>
    f.shape = .one && f.alts = [.nat] && decide (key ∈ sizes)
  | .one _ key .self [(none, .conv .integer)] none false =>
    f.shape = .one && f.alts = [.nat] && decide (key ∈ sizes)
  | _ => false

/-- The statement stores an alignment or a display format. -/
def isText (f : Field Cls) : RItem RM → Bool
  | .one _ _ .self [(none, .conv .int0OrText)] none false =>
    f.shape = .one && f.alts = [.int, .alignment]
  | .one _ _ .self [(none, .conv .text)] none false => f.shape = .one && f.alts = [.format]
  | _ => false

/-- The statement stores nothing, or an argument the constructor knows, or reads one of the
rejected parts. -/
def itemKnown (c : Cls) (ri : RItem RM) : Bool :=
  match ri with
  | .noKids _ | .admin => true
  | _ => ((Schema.ctor c).any fun f => f.param = ri.key) ||
    match ri with
    | .one t _ _ _ _ _ => decide (t ∈ rejected c)
    | .many t _ _ _ _ => decide (t ∈ rejected c)
    | _ => false

def itemOk (c : Cls) (ri : RItem RM) : Bool :=
  itemKnown c ri && (Schema.ctor c).all fun f => f.param ≠ ri.key ||
    itemFit f ri || isSize f ri || isText f ri

/-- The statement reads the part and stores an argument the constructor does not know. -/
def trips (c : Cls) (tag : String) (ri : RItem RM) : Bool :=
  match ri with
  | .one t key .self ralts _ false =>
    t = tag && (pickTag t ralts).isSome && !((Schema.ctor c).any fun f => f.param = key)
  | .many t key _ _ _ => t = tag && !((Schema.ctor c).any fun f => f.param = key)
  | _ => false

def methOk : RMethod Cls RM → Bool
  | .node c items => items.all (itemOk c) && (rejected c).all fun t => items.any (trips c t)
  | .mixed c items key tags _ =>
    items.all (itemOk c) && decide (rejected c = []) &&
    ((Schema.ctor c).any fun f => f.param = key) &&
    (Schema.ctor c).all fun f => f.param ≠ key || (f.shape ≠ .one && takesStr f.alts &&
      tags.all fun x => resFit f.alts (rm x.2 x.1))
  | _ => true

theorem meths_fixed : ∀ n < 202, methOk (rm (RM.ofNat n) "") = true := by decide +kernel

theorem meths_ok (m : RM) (t : String) : methOk (rm m t) = true := by
  by_cases hb : byTag m = true
  · cases m <;> simp only [byTag, Bool.false_eq_true] at hb
    · show methOk (Reader.multi_language_long_name t) = true
      unfold Reader.multi_language_long_name
      split <;> first | rfl | decide +kernel
    · show methOk (Reader.multi_language_overview_paragraph t) = true
      unfold Reader.multi_language_overview_paragraph
      split <;> first | rfl | decide +kernel
    · show methOk (Reader.port_in_composition_type_instance_ref t) = true
      unfold Reader.port_in_composition_type_instance_ref
      split <;> first | rfl | decide +kernel
  · rw [rm_fixed (by simpa using hb) t ""]
    have h : m.ctorIdx < 202 := by cases m <;> decide
    have := meths_fixed _ h
    rwa [RM.ofNat_ctorIdx] at this

/-! ### Values -/

/-- The value is of one of the types. -/
abbrev Fits (alts : List (STy Cls)) (v : Val Cls) : Prop := ∃ a ∈ alts, fitsS a v = true

theorem fits_str {alts : List (STy Cls)} (h : takesStr alts = true) (s : String) :
    Fits alts (.str s) := by
  simp only [takesStr, Bool.or_eq_true, List.contains_iff_mem] at h
  rcases h with h | h <;> exact ⟨_, h, rfl⟩

theorem fits_int {alts : List (STy Cls)} (h : takesInt alts = true) (i : Int) :
    Fits alts (.num (.int i)) := by
  simp only [takesInt, Bool.or_eq_true, List.contains_iff_mem] at h
  rcases h with h | h <;> exact ⟨_, h, rfl⟩

theorem fits_float {alts : List (STy Cls)} (h : takesFloat alts = true) (x : PyFloat) :
    Fits alts (.num (.float x)) := by
  simp only [takesFloat, Bool.or_eq_true, List.contains_iff_mem] at h
  rcases h with (h | h) | h <;> exact ⟨_, h, rfl⟩

theorem fits_num {alts : List (STy Cls)} (h : takesInt alts = true) (h' : takesFloat alts = true)
    (n : PyNum) : Fits alts (.num n) := by
  cases n with
  | int i => exact fits_int h i
  | float x => exact fits_float h' x

theorem conv_fits {c : Conv} {t : Option String} {v : Val Cls} {alts : List (STy Cls)}
    (hc : convFit alts c = true) (h : c.run t = .ok (some v)) : Fits alts v := by
  cases t with
  | none =>
    cases c <;> simp [Conv.run] at h
    subst h
    exact fits_str hc _
  | some t =>
    cases c <;> simp only [Conv.run] at h
    case text => cases h; exact fits_str hc _
    case str => cases h; exact fits_str hc _
    case enum cls =>
      split at h
      · rename_i m hm
        cases h
        have he := (xmlToEnum_ok hm).1
        simp only [convFit, Bool.or_eq_true, List.contains_iff_mem] at hc
        rcases hc with hc | hc
        · exact ⟨_, hc, by simpa [fitsS] using he⟩
        · exact ⟨_, hc, by simpa [fitsS] using he⟩
      · cases h
    case boolean =>
      have hc' : STy.bool ∈ alts := by simpa [convFit] using hc
      split at h
      · cases h; exact ⟨_, hc', rfl⟩
      · split at h
        · cases h; exact ⟨_, hc', rfl⟩
        · cases h
    case posInt =>
      split at h
      · rename_i n hn
        cases h
        simp only [convFit, Bool.or_eq_true, List.contains_iff_mem] at hc
        rcases hc with hc | hc
        · exact fits_int hc _
        · exact ⟨_, hc, by simp [fitsS]⟩
      · cases h
    case numVal =>
      simp only [convFit, Bool.and_eq_true, List.contains_iff_mem] at hc
      split at h
      · cases h; exact fits_num hc.1.1 hc.1.2 _
      · cases h; exact ⟨_, hc.2, rfl⟩
      · cases h
    case number | numPlain =>
      simp only [convFit, Bool.and_eq_true] at hc
      split at h
      · cases h; exact fits_num hc.1 hc.2 _
      · cases h
    case integer | int =>
      split at h
      · cases h; exact fits_int hc _
      · cases h
    case float | castFloat =>
      split at h
      · cases h; exact fits_float hc _
      · cases h
    case intOrText | int0OrText =>
      simp only [convFit, Bool.and_eq_true] at hc
      split at h
      · cases h; exact fits_int hc.1 _
      · cases h; exact fits_str hc.2 _

/-- What a reader method returns is of its class. -/
def Res : RMethod Cls RM → Val Cls → Prop
  | .node c _, v => ∃ fs, v = .obj c fs
  | .mixed c _ _ _ _, v => ∃ fs, v = .obj c fs
  | .ref cls _, v => ∃ r, v = .ref r ∧ r.cls = cls
  | .bad _, _ => False

theorem build_res {c : Cls} {data : Data Cls} {v : Val Cls} (h : build tables c data = .ok v) :
    ∃ fs, v = .obj c fs := by
  unfold build buildWith at h
  split at h
  · cases h
  split at h
  · cases h
  split at h
  · cases h
  cases h
  exact ⟨_, rfl⟩

theorem run_res {m : RM} {t : String} {as : Attrs} {x : Option String} {kids : List RD}
    {v : Val Cls} (h : runReader tables m t as x kids = .ok v) : Res (rm m t) v := by
  unfold runReader at h
  have htab : tables.rm m t = rm m t := rfl
  rw [htab] at h
  cases hm : rm m t with
  | bad e => rw [hm] at h; cases h
  | node c items =>
    rw [hm] at h
    simp only at h
    split at h
    · cases h
    · exact build_res h
  | ref cls dest =>
    rw [hm] at h
    simp only at h
    split at h
    · cases h
    · split at h
      · split at h
        · split at h
          · rename_i r hr
            cases h
            exact ⟨r, rfl, (construct_ok hr).1⟩
          · cases h
        · cases h
      · split at h
        · cases h
        · split at h
          · rename_i r hr
            cases h
            exact ⟨r, rfl, (construct_ok hr).1⟩
          · cases h
  | mixed c items key tags skipped =>
    rw [hm] at h
    simp only at h
    split at h
    · cases h
    · split at h
      · cases h
      · exact build_res h

/-- Whatever a reader method makes of the element is of the method's class. -/
def Typed (k : RD) : Prop := ∀ m v, k.read m = .ok v → Res (rm m k.tag) v

theorem den_typed {tl : Option String} {d : Dom} {k : RD} (h : rden tables tl d = some k) :
    Typed k := by
  cases d with
  | text s => rw [rden] at h; cases h
  | elem t as ds =>
    rw [rden_elem] at h
    cases h
    intro m v h
    exact run_res h

theorem res_fits {x : RMethod Cls RM} {v : Val Cls} {alts : List (STy Cls)} (h : Res x v)
    (hf : resFit alts x = true) : Fits alts v := by
  cases x with
  | node c i =>
    obtain ⟨fs, rfl⟩ := h
    exact ⟨.cls c, by simpa [resFit] using hf, by simp [fitsS]⟩
  | mixed c i k t s =>
    obtain ⟨fs, rfl⟩ := h
    exact ⟨.cls c, by simpa [resFit] using hf, by simp [fitsS]⟩
  | ref cls d =>
    obtain ⟨r, rfl, hr⟩ := h
    simp only [resFit, List.any_eq_true] at hf
    obtain ⟨a, ha, hf⟩ := hf
    split at hf
    · exact ⟨_, ha, by simpa [fitsS, hr] using (of_decide_eq_true hf).symm⟩
    · exact ⟨_, ha, by simpa [fitsS, hr] using (of_decide_eq_true hf).symm⟩
    · cases hf
  | bad e => exact h.elim

theorem atom_fits {k : RD} (hk : Typed k) {a : RAtom RM} {v : Val Cls} {alts : List (STy Cls)}
    (h : readAtom k a = .ok (some v)) (ha : atomFit alts k.tag a = true) : Fits alts v := by
  cases a with
  | conv c => exact conv_fits ha h
  | meth m =>
    simp only [readAtom] at h
    split at h
    · rename_i w hw
      cases h
      exact res_fits (hk m v hw) ha
    · cases h
  | limit =>
    simp only [readAtom] at h
    unfold readLimit at h
    split at h
    · cases h
    · simp only at h
      split at h
      · cases h
        exact ⟨.limit, by simpa [atomFit] using ha, rfl⟩
      · cases h
      · cases h

theorem atom_any {t : String} {alts : List (STy Cls)} {a : RAtom RM}
    (h : atomFitAny alts a = true) : atomFit alts t a = true := by
  cases a with
  | meth m =>
    simp only [atomFitAny, Bool.and_eq_true, Bool.not_eq_true'] at h
    simp only [atomFit]
    rw [rm_fixed h.1 t ""]
    exact h.2
  | _ => exact h

theorem pick_fits {ctx : Option String} {t : String} {alts : List (STy Cls)} {ralts : RAlts RM}
    {a : RAtom RM} (hf : altsFit alts ctx ralts = true) (hc : ∀ c, ctx = some c → c = t)
    (h : pickTag t ralts = some a) : atomFit alts t a = true := by
  induction ralts with
  | nil => simp [pickTag] at h
  | cons x rest ih =>
    obtain ⟨x, b⟩ := x
    simp only [altsFit, List.all_cons, Bool.and_eq_true] at hf
    rw [pickTag] at h
    split at h
    · rename_i hx
      cases h
      rcases hx with rfl | rfl
      · cases ctx with
        | none => exact atom_any hf.1
        | some c => rw [← hc c rfl]; exact hf.1
      · exact hf.1
    · exact ih hf.2 h

theorem call_fits {k : RD} (hk : Typed k) {ctx : Option String} {alts : List (STy Cls)}
    {ralts : RAlts RM} (hf : altsFit alts ctx ralts = true) (hc : ∀ c, ctx = some c → c = k.tag)
    {miss : Option PyErr} {vs : List (Option (Val Cls))} {v : Val Cls}
    (h : readCall ralts miss k = .ok vs) (hv : some v ∈ vs) : Fits alts v := by
  unfold readCall at h
  split at h
  · rename_i a ha
    split at h
    · rename_i w hw
      cases h
      simp only [List.mem_singleton] at hv
      subst hv
      exact atom_fits hk hw (pick_fits hf hc ha)
    · cases h
  · split at h
    · cases h; cases hv
    · cases h

theorem list_fits {ks : List RD} (hk : ∀ k ∈ ks, Typed k) {alts : List (STy Cls)}
    {ralts : RAlts RM} (hf : altsFit alts none ralts = true) {miss : Option PyErr}
    {vs : List (Val Cls)} (h : readList ralts miss ks = .ok vs) : ∀ v ∈ vs, Fits alts v := by
  intro v hv
  obtain ⟨k, hk', r, hr, hv⟩ := Load.collect_mem h hv
  unfold readElem at hr
  split at hr
  · rename_i w hw
    cases hr
    simp only [List.mem_singleton] at hv
    subst hv
    exact call_fits (hk k hk') hf (by simp) hw (by simp)
  · cases hr; cases hv
  · cases hr
  · cases hr

/-! ### Arguments -/

theorem fits_one {f : Field Cls} {v : Val Cls} (hs : f.shape = .one) (h : Fits f.alts v) :
    fits f v = true := by
  obtain ⟨a, ha, h⟩ := h
  have : (f.alts.any fun a => fitsS a v) = true := List.any_eq_true.2 ⟨a, ha, h⟩
  cases v <;> first | (simp only [fits, Bool.and_eq_true, decide_eq_true_eq]; exact ⟨hs, this⟩) |
    (cases a <;> simp [fitsS] at h)

theorem fits_many {f : Field Cls} {vs : List (Val Cls)} (hs : f.shape ≠ .one)
    (h : ∀ v ∈ vs, Fits f.alts v) : fits f (.list vs) = true := by
  simp only [fits, Bool.and_eq_true, List.all_eq_true, List.any_eq_true]
  exact ⟨by simpa using hs, h⟩

theorem item_fits {as : Attrs} {x : Option String} {kids : List RD} (hk : ∀ k ∈ kids, Typed k)
    (hkk : ∀ k ∈ kids, ∀ k' ∈ k.kids, Typed k') {ri : RItem RM} {f : Field Cls} {data : Data Cls}
    (hi : itemFit f ri = true) (h : readItem as x kids ri = .ok data) {key : String} {v : Val Cls}
    (hv : (key, some v) ∈ data) : fits f v = true := by
  cases ri with
  | text k co =>
    simp only [itemFit, Bool.and_eq_true, decide_eq_true_eq] at hi
    simp only [readItem] at h
    split at h
    · rename_i w hw
      cases h
      simp only [List.mem_singleton, Prod.mk.injEq] at hv
      obtain ⟨rfl, rfl⟩ := hv
      exact fits_one hi.1 (conv_fits hi.2 hw)
    · cases h
  | noKids e =>
    simp only [readItem] at h
    split at h
    · cases h; cases hv
    · cases h
  | attr name k co req =>
    simp only [itemFit, Bool.and_eq_true, decide_eq_true_eq] at hi
    simp only [readItem] at h
    split at h
    · split at h
      · cases h
      · cases h; cases hv
    · split at h
      · rename_i w hw
        cases h
        simp only [List.mem_singleton, Prod.mk.injEq] at hv
        obtain ⟨rfl, rfl⟩ := hv
        exact fits_one hi.1 (conv_fits hi.2 hw)
      · cases h
  | required t k =>
    simp only [itemFit, Bool.and_eq_true, decide_eq_true_eq] at hi
    simp only [readItem] at h
    split at h
    · cases h
    · cases h
      simp only [List.mem_singleton, Prod.mk.injEq] at hv
      obtain ⟨rfl, hv⟩ := hv
      obtain ⟨s, hs, rfl⟩ := Option.map_eq_some_iff.1 hv.symm
      exact fits_one hi.1 (fits_str hi.2 s)
  | one t k inner alts miss ck =>
    simp only [readItem] at h
    split at h
    · cases h; cases hv
    · rename_i k1 hk1
      split at h
      · cases h; cases hv
      · rename_i k2 hk2
        have hf : Typed k2 := by
          rcases inner_mem hk2 with rfl | h'
          · exact hk _ (childOf_mem hk1)
          · exact hkk _ (childOf_mem hk1) _ h'
        split at h
        · rename_i vs hvs
          cases h
          simp only [List.mem_map, Prod.mk.injEq] at hv
          obtain ⟨w, hw, rfl, rfl⟩ := hv
          cases inner with
          | self =>
            simp only [itemFit, Bool.and_eq_true, decide_eq_true_eq] at hi
            cases hk2
            exact fits_one hi.1 (call_fits hf hi.2 (by simp [child_tag hk1]) hvs hw)
          | first =>
            simp only [itemFit, Bool.and_eq_true, decide_eq_true_eq] at hi
            exact fits_one hi.1 (call_fits hf hi.2 (by simp) hvs hw)
          | tag t' =>
            simp only [itemFit, Bool.and_eq_true, decide_eq_true_eq] at hi
            exact fits_one hi.1 (call_fits hf hi.2 (by simp [child_tag hk2]) hvs hw)
        · split at h
          · cases h; cases hv
          · cases h
  | many t k alts miss max =>
    simp only [itemFit, Bool.and_eq_true, decide_eq_true_eq] at hi
    simp only [readItem] at h
    split at h
    · cases h; cases hv
    · rename_i k1 hk1
      split at h
      · cases h
      · rename_i vs hvs
        have := fits_many (f := f) hi.1 (list_fits (hkk _ (childOf_mem hk1)) hi.2 hvs)
        split at h
        · split at h
          · cases h
          · cases h
            simp only [List.mem_singleton, Prod.mk.injEq, Option.some.injEq] at hv
            obtain ⟨rfl, rfl⟩ := hv
            exact this
        · cases h
          simp only [List.mem_singleton, Prod.mk.injEq, Option.some.injEq] at hv
          obtain ⟨rfl, rfl⟩ := hv
          exact this
  | flat k alts miss =>
    simp only [itemFit, Bool.and_eq_true, decide_eq_true_eq] at hi
    simp only [readItem] at h
    split at h
    · cases h
    · rename_i vs hvs
      cases h
      simp only [List.mem_singleton, Prod.mk.injEq, Option.some.injEq] at hv
      obtain ⟨rfl, rfl⟩ := hv
      exact fits_many hi.1 (list_fits hk hi.2 hvs)
  | choice k alts req =>
    simp only [itemFit, Bool.and_eq_true, decide_eq_true_eq, List.all_eq_true] at hi
    simp only [readItem] at h
    split at h
    · split at h
      · cases h
      · cases h; cases hv
    · rename_i k1 a hka
      split at h
      · rename_i w hw
        cases h
        simp only [List.mem_singleton, Prod.mk.injEq] at hv
        obtain ⟨rfl, rfl⟩ := hv
        have hm : (k1, a) ∈ alts.filterMap (fun a => (childOf a.1 kids).map (fun k => (k, a.2))) := by
          rw [hka]; simp
        obtain ⟨y, hy, hya⟩ := List.mem_filterMap.1 hm
        obtain ⟨k2, hk2, he⟩ := Option.map_eq_some_iff.1 hya
        cases he
        exact fits_one hi.1 (atom_fits (hk _ (childOf_mem hk2)) hw
          (by rw [child_tag hk2]; exact hi.2 y hy))
      · cases h
    · cases h
  | admin =>
    simp only [readItem] at h
    split at h
    · cases h; cases hv
    · split at h
      · cases h; cases hv
      · cases h

theorem size_fits {as : Attrs} {x : Option String} {kids : List RD} {ri : RItem RM}
    {f : Field Cls} {data : Data Cls} (hi : isSize f ri = true)
    (h : readItem as x kids ri = .ok data) {key : String} {v : Val Cls}
    (hv : (key, some v) ∈ data) :
    key ∈ sizes ∧ f.shape = .one ∧ f.alts = [.nat] ∧ ∃ i : Int, v = .num (.int i) := by
  unfold isSize at hi
  split at hi
  all_goals first
    | (exact Bool.noConfusion hi)
    | (simp only [Bool.and_eq_true, decide_eq_true_eq] at hi
       simp only [readItem] at h
       split at h
       · cases h; cases hv
       · rename_i k hk
         simp only [Inner.get, readCall, pickTag, true_or, if_true, readAtom] at h
         cases ht : k.text with
         | none => rw [ht] at h; simp [Conv.run] at h
         | some t =>
           rw [ht] at h
           simp only [Conv.run] at h
           split at h
           · rename_i vs hvs
             cases h
             simp only [List.mem_map, Prod.mk.injEq] at hv
             obtain ⟨w, hw, rfl, rfl⟩ := hv
             refine ⟨hi.2, hi.1.1, hi.1.2, ?_⟩
             split at hvs
             · rename_i u hu
               cases hvs
               simp only [List.mem_singleton] at hw
               subst hw
               split at hu
               · cases hu; exact ⟨_, rfl⟩
               · cases hu
             · cases hvs
           · simp at h)

/-- The value is an alignment or a display format. -/
def TextFor (f : Field Cls) (v : Val Cls) : Prop :=
  f.shape = .one ∧ ((f.alts = [.int, .alignment] ∧ ((∃ i : Int, v = .num (.int i)) ∨ ∃ s, v = .str s)) ∨
    (f.alts = [.format] ∧ ∃ s, v = .str s))

theorem text_fits {as : Attrs} {x : Option String} {kids : List RD} {ri : RItem RM}
    {f : Field Cls} {data : Data Cls} (hi : isText f ri = true)
    (h : readItem as x kids ri = .ok data) {key : String} {v : Val Cls}
    (hv : (key, some v) ∈ data) : TextFor f v := by
  unfold isText at hi
  split at hi
  · simp only [Bool.and_eq_true, decide_eq_true_eq] at hi
    refine ⟨hi.1, .inl ⟨hi.2, ?_⟩⟩
    simp only [readItem] at h
    split at h
    · cases h; cases hv
    · rename_i k hk
      simp only [Inner.get, readCall, pickTag, true_or, if_true, readAtom] at h
      cases ht : k.text with
      | none => rw [ht] at h; simp [Conv.run] at h
      | some t =>
        rw [ht] at h
        simp only [Conv.run] at h
        cases hp : pyInt0 t.toList with
        | none =>
          simp only [hp] at h
          cases h
          simp only [List.map_cons, List.map_nil, List.mem_singleton, Prod.mk.injEq] at hv
          exact .inr ⟨t, by simpa using hv.2⟩
        | some i =>
          simp only [hp] at h
          cases h
          simp only [List.map_cons, List.map_nil, List.mem_singleton, Prod.mk.injEq] at hv
          exact .inl ⟨i, by simpa using hv.2⟩
  · simp only [Bool.and_eq_true, decide_eq_true_eq] at hi
    refine ⟨hi.1, .inr ⟨hi.2, ?_⟩⟩
    simp only [readItem] at h
    split at h
    · cases h; cases hv
    · rename_i k hk
      simp only [Inner.get, readCall, pickTag, true_or, if_true, readAtom] at h
      cases ht : k.text with
      | none =>
        rw [ht] at h
        simp only [Conv.run] at h
        cases h
        simp at hv
      | some t =>
        rw [ht] at h
        simp only [Conv.run] at h
        cases h
        simp only [List.map_cons, List.map_nil, List.mem_singleton, Prod.mk.injEq] at hv
        exact ⟨t, by simpa using hv.2⟩
  · cases hi

/-- The key of what a statement stores. -/
theorem item_key {as : Attrs} {x : Option String} {kids : List RD} {ri : RItem RM}
    {data : Data Cls} (h : readItem as x kids ri = .ok data) :
    ∀ e ∈ data, e.1 = ri.key := by
  intro e he
  cases ri <;> simp only [readItem] at h
  all_goals
    repeat' split at h
  all_goals first
    | (cases h; done)
    | (cases h; cases he; done)
    | (cases h; simp only [List.mem_singleton] at he; subst he; rfl)
    | (cases h
       simp only [List.mem_map] at he
       obtain ⟨w, -, rfl⟩ := he
       rfl)

theorem item_known {as : Attrs} {x : Option String} {kids : List RD} {ri : RItem RM} {c : Cls}
    {data : Data Cls} (hi : itemKnown c ri = true) (h : readItem as x kids ri = .ok data)
    (hno : ∀ t ∈ rejected c, childOf t kids = none) :
    ∀ e ∈ data, ∃ f ∈ Schema.ctor c, f.param = e.1 := by
  intro e he
  have hkey := item_key h e he
  have hany : ((Schema.ctor c).any fun f => f.param = ri.key) = true →
      ∃ f ∈ Schema.ctor c, f.param = e.1 := by
    intro h
    obtain ⟨f, hf, hp⟩ := List.any_eq_true.1 h
    exact ⟨f, hf, by rw [hkey]; simpa using hp⟩
  cases ri with
  | noKids e' =>
    simp only [readItem] at h
    split at h
    · cases h; cases he
    · cases h
  | admin =>
    simp only [readItem] at h
    split at h
    · cases h; cases he
    · split at h
      · cases h; cases he
      · cases h
  | one t k inner alts miss ck =>
    simp only [itemKnown, Bool.or_eq_true, decide_eq_true_eq] at hi
    rcases hi with hi | hi
    · exact hany hi
    · simp only [readItem, hno t hi] at h
      cases h; cases he
  | many t k alts miss max =>
    simp only [itemKnown, Bool.or_eq_true, decide_eq_true_eq] at hi
    rcases hi with hi | hi
    · exact hany hi
    · simp only [readItem, hno t hi] at h
      cases h; cases he
  | _ =>
    simp only [itemKnown, Bool.or_false] at hi
    exact hany hi

/-- The arguments of a constructor call. -/
structure Args (c : Cls) (data : Data Cls) : Prop where
  known : ∀ e ∈ data, ∃ f ∈ Schema.ctor c, f.param = e.1
  fit : ∀ key v, (key, some v) ∈ data → ∀ f ∈ Schema.ctor c, f.param = key →
    fits f v = true ∨
      (key ∈ sizes ∧ f.shape = .one ∧ f.alts = [.nat] ∧ ∃ i : Int, v = .num (.int i)) ∨ TextFor f v

theorem build_made {c : Cls} {data : Data Cls} (h : Args c data)
    (hreq : ∀ f ∈ Schema.ctor c, f.req = true → (lastOf data f.param).isSome = true)
    (hsize : ∀ key ∈ sizes, ∀ i : Int, lastOf data key = some (some (.num (.int i))) → 0 ≤ i)
    (halign : ∀ f ∈ Schema.ctor c, ∀ s, f.alts = [.int, .alignment] →
      lastOf data f.param = some (some (.str s)) → alignmentMatch s.toList = true)
    (hform : ∀ f ∈ Schema.ctor c, ∀ s, f.alts = [.format] →
      lastOf data f.param = some (some (.str s)) → formatMatch s.toList = true) :
    build tables c data = .ok (made c data) := by
  have htc : tables.ctor c = Schema.ctor c := rfl
  unfold build buildWith
  rw [htc]
  rw [if_neg, if_neg, if_neg]
  · rfl
  · simp only [Bool.not_eq_false, List.all_eq_true]
    intro f hf
    unfold argOk
    split
    · rfl
    · rename_i w hw
      have hl : lastOf data f.param = some (some w) := by
        cases hl : lastOf data f.param with
        | none => simp [hl, normal] at hw
        | some x =>
          cases x with
          | none => simp [hl, normal] at hw
          | some u =>
            rw [hl] at hw
            simp only [Option.getD_some] at hw
            unfold normal at hw
            split at hw
            · cases hw
            · rw [hw]
      rcases h.fit _ _ (lastOf_mem hl) f hf rfl with h' | ⟨h1, h2, h3, i, rfl⟩ | h'
      · exact h'
      · have := hsize _ h1 i hl
        simp [fits, h2, h3, fitsS, this]
      · obtain ⟨h2, ⟨h3, ⟨i, rfl⟩ | ⟨s, rfl⟩⟩ | ⟨h3, s, rfl⟩⟩ := h'
        · simp [fits, h2, h3, fitsS]
        · have := halign f hf s h3 hl
          simp [fits, h2, h3, fitsS, this]
        · have := hform f hf s h3 hl
          simp [fits, h2, h3, fitsS, this]
  · simp only [List.any_eq_true, not_exists, not_and, Bool.and_eq_true, Bool.not_eq_true]
    intro f hf hr
    have := hreq f hf hr
    cases hl : lastOf data f.param <;> simp_all
  · simp only [Bool.not_eq_false, List.all_eq_true, List.any_eq_true, decide_eq_true_eq]
    exact h.known

theorem sizes_fixed : ∀ n < 186, ((Schema.ctor (Cls.ofNat n)).all fun f =>
    decide (f.param ∉ sizes) || (decide (f.alts = [.nat]) && decide (f.shape = .one))) = true := by
  decide +kernel

theorem size_alts {c : Cls} {f : Field Cls} (hf : f ∈ Schema.ctor c) (hp : f.param ∈ sizes) :
    f.alts = [.nat] ∧ f.shape = .one := by
  have h : c.ctorIdx < 186 := by cases c <;> decide
  have := sizes_fixed _ h
  rw [Cls.ofNat_ctorIdx] at this
  have := List.all_eq_true.1 this f hf
  simpa [hp] using this

theorem texts_fixed : ∀ n < 186, ((Schema.ctor (Cls.ofNat n)).all fun f =>
    (decide (f.alts ≠ [.int, .alignment]) ||
      (decide (Cls.ofNat n = .SwDataDefPropsConditional) && decide (f.param = "alignment"))) &&
    (decide (f.alts ≠ [.format]) ||
      (decide (Cls.ofNat n = .SwDataDefPropsConditional) && decide (f.param = "display_format")))) =
    true := by
  decide +kernel

theorem text_class {c : Cls} {f : Field Cls} (hf : f ∈ Schema.ctor c) :
    (f.alts = [.int, .alignment] → c = .SwDataDefPropsConditional ∧ f.param = "alignment") ∧
    (f.alts = [.format] → c = .SwDataDefPropsConditional ∧ f.param = "display_format") := by
  have h : c.ctorIdx < 186 := by cases c <;> decide
  have := texts_fixed _ h
  rw [Cls.ofNat_ctorIdx] at this
  have := List.all_eq_true.1 this f hf
  simp only [Bool.and_eq_true, Bool.or_eq_true, decide_eq_true_eq] at this
  exact ⟨fun h => this.1.resolve_left (absurd h), fun h => this.2.resolve_left (absurd h)⟩

theorem alignment_field :
    ∃ f ∈ Schema.ctor .SwDataDefPropsConditional, f.param = "alignment" ∧
      f.alts = [.int, .alignment] ∧ f.shape = .one := by
  have h : ((Schema.ctor .SwDataDefPropsConditional).any fun f =>
      decide (f.param = "alignment") && decide (f.alts = [.int, .alignment]) && decide (f.shape = .one)) =
      true := by
    decide +kernel
  obtain ⟨f, hf, h⟩ := List.any_eq_true.1 h
  simp only [Bool.and_eq_true, decide_eq_true_eq] at h
  exact ⟨f, hf, h.1.1, h.1.2, h.2⟩

theorem format_field :
    ∃ f ∈ Schema.ctor .SwDataDefPropsConditional, f.param = "display_format" ∧
      f.alts = [.format] ∧ f.shape = .one := by
  have h : ((Schema.ctor .SwDataDefPropsConditional).any fun f =>
      decide (f.param = "display_format") && decide (f.alts = [.format]) && decide (f.shape = .one)) =
      true := by
    decide +kernel
  obtain ⟨f, hf, h⟩ := List.any_eq_true.1 h
  simp only [Bool.and_eq_true, decide_eq_true_eq] at h
  exact ⟨f, hf, h.1.1, h.1.2, h.2⟩

/-- What becomes of a constructor call with arguments the constructor knows. -/
theorem build_outcome {c : Cls} {data : Data Cls} (h : Args c data) :
    (incomplete c data → build tables c data = .error .typeError) ∧
    (¬ incomplete c data → unaccepted c data → build tables c data = .error .valueError) ∧
    (¬ incomplete c data → ¬ unaccepted c data → build tables c data = .ok (made c data)) := by
  have htc : tables.ctor c = Schema.ctor c := rfl
  have hknown : (data.all fun kv => (Schema.ctor c).any fun f => decide (f.param = kv.1)) ≠ false := by
    simp only [ne_eq, Bool.not_eq_false, List.all_eq_true, List.any_eq_true, decide_eq_true_eq]
    exact h.known
  have hinc : ((Schema.ctor c).any fun f => f.req && (lastOf data f.param).isNone) = true ↔
      incomplete c data := by
    simp [incomplete, List.any_eq_true]
  refine ⟨?_, ?_, ?_⟩
  · intro hi
    unfold build buildWith
    rw [htc, if_neg hknown, if_pos (hinc.2 hi)]
  · intro hi hn
    have key : ∀ f ∈ Schema.ctor c, badValue data f = true → argOk data f = false →
        build tables c data = .error .valueError := by
      intro f hf h1 h2
      unfold build buildWith
      rw [htc, if_neg hknown, if_neg (fun h => hi (hinc.1 h)), if_pos, if_pos]
      · rw [List.any_eq_true]
        exact ⟨f, hf, h1⟩
      · rw [List.all_eq_false]
        exact ⟨f, hf, by simp [h2]⟩
    rcases hn with ⟨f, hf, hp, i, hneg, hl⟩ | ⟨rfl, s, hl, hb⟩ | ⟨rfl, s, hl, hb⟩
    · obtain ⟨ha, hs⟩ := size_alts hf hp
      exact key f hf (by simp [badValue, ha, hl, hneg])
        (by simp [argOk, hl, normal, fits, hs, ha, fitsS, hneg])
    · obtain ⟨f, hf, hp, ha, hs⟩ := alignment_field
      rw [← hp] at hl
      rw [← Pattern.alignment_iff, Bool.not_eq_true] at hb
      exact key f hf (by simp [badValue, ha, hl, hb])
        (by simp [argOk, hl, normal, fits, hs, ha, fitsS, hb])
    · obtain ⟨f, hf, hp, ha, hs⟩ := format_field
      rw [← hp] at hl
      rw [← Pattern.format_iff, Bool.not_eq_true] at hb
      exact key f hf (by simp [badValue, ha, hl, hb])
        (by simp [argOk, hl, normal, fits, hs, ha, fitsS, hb])
  · intro hi hn
    apply build_made h
    · intro f hf hr
      cases hl : lastOf data f.param with
      | none => exact absurd ⟨f, hf, hr, hl⟩ hi
      | some x => rfl
    · intro key hk i hl
      obtain ⟨f, hf, hp⟩ := h.known _ (lastOf_mem hl)
      by_cases hneg : i < 0
      · simp only at hp
        subst hp
        exact absurd (.inl ⟨f, hf, hk, i, hneg, hl⟩) hn
      · omega
    · intro f hf s ha hl
      obtain ⟨rfl, hp⟩ := (text_class hf).1 ha
      rw [hp] at hl
      rw [Pattern.alignment_iff]
      exact Classical.byContradiction fun hb => hn (.inr (.inl ⟨rfl, s, hl, hb⟩))
    · intro f hf s ha hl
      obtain ⟨rfl, hp⟩ := (text_class hf).2 ha
      rw [hp] at hl
      rw [Pattern.format_iff]
      exact Classical.byContradiction fun hb => hn (.inr (.inr ⟨rfl, s, hl, hb⟩))

theorem kids_typed {ds : List Dom} : ∀ k ∈ rdenKids tables ds, Typed k := by
  intro k hk
  obtain ⟨d, -, tl, h⟩ := kids_mem hk
  exact den_typed h

theorem kids_kids_typed {ds : List Dom} : ∀ k ∈ rdenKids tables ds, ∀ k' ∈ k.kids, Typed k' := by
  intro k hk k' hk'
  obtain ⟨d, -, tl, h⟩ := kids_mem hk
  cases d with
  | text s => rw [rden] at h; cases h
  | elem t as ds =>
    rw [rden_elem] at h
    cases h
    exact kids_typed k' hk'

theorem items_args {as : Attrs} {x : Option String} {ds : List Dom} {c : Cls}
    {items : List (RItem RM)} {data : Data Cls} (hi : ∀ ri ∈ items, itemOk c ri = true)
    (h : collect (items.map (readItem as x (rdenKids tables ds))) = .ok data)
    (hno : ∀ t ∈ rejected c, firstElem t ds = none) : Args c data := by
  have hno' : ∀ t ∈ rejected c, childOf t (rdenKids tables ds) = none := by
    intro t ht
    have := (child_first t ds).1
    rw [hno t ht] at this
    simpa using this
  constructor
  · intro e he
    obtain ⟨ri, hri, r, hr, he⟩ := Load.collect_mem h he
    have := hi ri hri
    simp only [itemOk, Bool.and_eq_true] at this
    exact item_known this.1 hr hno' e he
  · intro key v hv f hf hp
    obtain ⟨ri, hri, r, hr, hv⟩ := Load.collect_mem h hv
    have := hi ri hri
    simp only [itemOk, Bool.and_eq_true, List.all_eq_true, Bool.or_eq_true,
      decide_eq_true_eq] at this
    have hkey := item_key hr _ hv
    simp only at hkey
    rcases this.2 f hf with ((h' | h') | h') | h'
    · exact absurd (by rw [hp, hkey]) h'
    · exact .inl (item_fits kids_typed kids_kids_typed h' hr hv)
    · exact .inr (.inl (size_fits h' hr hv))
    · exact .inr (.inr (text_fits h' hr hv))

theorem part_fits {x : Option String} {tags : List (String × RM)} {skipped : List String} {k : RD}
    (hk : Typed k) {alts : List (STy Cls)} (hs : takesStr alts = true)
    (ht : ∀ p ∈ tags, resFit alts (rm p.2 p.1) = true) {vs : List (Val Cls)}
    (h : readPart x tags skipped k = .ok vs) : ∀ v ∈ vs, Fits alts v := by
  have hafter : ∀ r, (match k.tail, x with
      | none, _ => .ok []
      | some _, some t => .ok [.str t]
      | some _, none => .error PyErr.typeError : Except PyErr (List (Val Cls))) = .ok r →
      ∀ v ∈ r, Fits alts v := by
    intro r hr
    split at hr
    · cases hr; simp
    · cases hr
      intro v hv
      simp only [List.mem_singleton] at hv
      subst hv
      exact fits_str hs _
    · cases hr
  unfold readPart at h
  simp only at h
  split at h
  · rename_i m hm
    split at h
    · cases h
    · rename_i v hv
      split at h
      · cases h
      · rename_i r hr
        cases h
        intro w hw
        rcases List.mem_cons.1 hw with rfl | hw
        · exact res_fits (hk m _ hv) (ht _ (dictGet_mem _ _ _ hm))
        · exact hafter r hr w hw
  · split at h
    · exact hafter vs h
    · cases h

/-- Elements without rejected parts whose parts can be read. -/
theorem read_args {m : RM} {t : String} {as : Attrs} {ds : List Dom} {c : Cls} {data : Data Cls}
    (hc : objClass m t = some c) (hg : gather m (.elem t as ds) = .ok data)
    (hno : ∀ tag ∈ rejected c, firstElem tag ds = none) :
    Args c data ∧ readWith tables m (.elem t as ds) = build tables c data := by
  have hmo := meths_ok m t
  unfold readWith
  rw [rden_elem]
  show _ ∧ runReader tables m t as (leadText ds) (rdenKids tables ds) = _
  unfold runReader
  have htab : tables.rm m t = rm m t := rfl
  rw [htab]
  unfold objClass at hc
  simp only [gather] at hg
  cases hm : rm m t with
  | bad e => rw [hm] at hc; cases hc
  | ref cls d => rw [hm] at hc; cases hc
  | node c' items =>
    rw [hm] at hc hg hmo
    cases hc
    simp only [methOk, Bool.and_eq_true, List.all_eq_true] at hmo
    simp only at hg ⊢
    rw [hg]
    exact ⟨items_args hmo.1 hg hno, rfl⟩
  | mixed c' items key tags skipped =>
    rw [hm] at hc hg hmo
    cases hc
    simp only [methOk, Bool.and_eq_true, List.all_eq_true, Bool.or_eq_true, decide_eq_true_eq,
      List.any_eq_true] at hmo
    obtain ⟨⟨⟨h1, h2⟩, h3⟩, h4⟩ := hmo
    simp only at hg ⊢
    split at hg
    · cases hg
    · rename_i data' hd
      split at hg
      · cases hg
      · rename_i vs hvs
        cases hg
        rw [hd]
        simp only
        rw [hvs]
        refine ⟨?_, rfl⟩
        have ha := items_args h1 hd hno
        constructor
        · intro e he
          rcases List.mem_append.1 he with he | he
          · exact ha.known e he
          · simp only [List.mem_singleton] at he
            subst he
            exact h3
        · intro k v hv f hf hp
          rcases List.mem_append.1 hv with hv | hv
          · exact ha.fit k v hv f hf hp
          · simp only [List.mem_singleton, Prod.mk.injEq, Option.some.injEq] at hv
            obtain ⟨rfl, rfl⟩ := hv
            rcases h4 f hf with h4 | ⟨⟨h5, h6⟩, h7⟩
            · exact absurd hp h4
            · refine .inl (fits_many h5 ?_)
              intro w hw
              rcases List.mem_append.1 hw with hw | hw
              · split at hw
                · simp only [List.mem_singleton] at hw
                  subst hw
                  exact fits_str h6 _
                · cases hw
              · obtain ⟨k', hk', r, hr, hmem⟩ := Load.collect_mem hvs hw
                exact part_fits (kids_typed k' hk') h6 h7 hr w hmem

/-! ### Rejected parts -/

theorem collect_all {α β : Type} {f : α → Except PyErr (List β)} {l : List α} {r : List β}
    (h : collect (l.map f) = .ok r) : ∀ a ∈ l, ∃ r', f a = .ok r' ∧ ∀ x ∈ r', x ∈ r := by
  induction l generalizing r with
  | nil => simp
  | cons a l ih =>
    simp only [List.map_cons] at h
    cases ha : f a with
    | error e => rw [ha] at h; cases h
    | ok r1 =>
      rw [ha] at h
      simp only [collect] at h
      split at h
      · cases h
      · rename_i r2 h2
        cases h
        intro b hb
        rcases List.mem_cons.1 hb with rfl | hb
        · exact ⟨r1, ha, fun x hx => by simp [hx]⟩
        · obtain ⟨r', h1, h3⟩ := ih h2 b hb
          exact ⟨r', h1, fun x hx => by simp [h3 x hx]⟩

theorem item_trips {as : Attrs} {x : Option String} {kids : List RD} {ri : RItem RM} {c : Cls}
    {tag : String} {data : Data Cls} (ht : trips c tag ri = true)
    (hs : (childOf tag kids).isSome = true) (h : readItem as x kids ri = .ok data) :
    ∃ e ∈ data, ∀ f ∈ Schema.ctor c, f.param ≠ e.1 := by
  have hne : ∀ key, ((Schema.ctor c).any fun f => decide (f.param = key)) = false →
      ∀ f ∈ Schema.ctor c, f.param ≠ key := by
    intro key h f hf hp
    rw [List.any_eq_false] at h
    exact h f hf (by simpa using hp)
  unfold trips at ht
  split at ht
  · rename_i t key ralts miss
    simp only [Bool.and_eq_true, decide_eq_true_eq, Bool.not_eq_true'] at ht
    obtain ⟨⟨rfl, hp⟩, hk⟩ := ht
    simp only [readItem] at h
    split at h
    · rename_i hn; rw [hn] at hs; cases hs
    · rename_i k hk'
      simp only [Inner.get, readCall, child_tag hk'] at h
      obtain ⟨a, ha⟩ := Option.isSome_iff_exists.1 hp
      rw [ha] at h
      simp only at h
      cases hr : readAtom k a with
      | error e => rw [hr] at h; simp at h
      | ok v =>
        rw [hr] at h
        cases h
        exact ⟨(key, v), by simp, hne key hk⟩
  · rename_i t key alts miss max
    simp only [Bool.and_eq_true, decide_eq_true_eq, Bool.not_eq_true'] at ht
    obtain ⟨rfl, hk⟩ := ht
    simp only [readItem] at h
    split at h
    · rename_i hn; rw [hn] at hs; cases hs
    · split at h
      · cases h
      · rename_i vs hvs
        split at h
        · split at h
          · cases h
          · cases h
            exact ⟨_, List.mem_singleton.2 rfl, hne key hk⟩
        · cases h
          exact ⟨_, List.mem_singleton.2 rfl, hne key hk⟩
  · cases ht

theorem build_rejects {c : Cls} {data : Data Cls}
    (h : ∃ e ∈ data, ∀ f ∈ Schema.ctor c, f.param ≠ e.1) :
    build tables c data = .error .typeError := by
  have htc : tables.ctor c = Schema.ctor c := rfl
  unfold build buildWith
  rw [htc, if_pos]
  obtain ⟨e, he, hf⟩ := h
  rw [List.all_eq_false]
  refine ⟨e, he, ?_⟩
  simp only [List.any_eq_true, decide_eq_true_eq, not_exists, not_and]
  exact hf

/-- An element with a rejected part cannot be read. -/
theorem read_rejected {m : RM} {t : String} {as : Attrs} {ds : List Dom} {c : Cls} {tag : String}
    (hc : objClass m t = some c) (ht : tag ∈ rejected c)
    (hs : (firstElem tag ds).isSome = true) :
    ∃ e, readWith tables m (.elem t as ds) = .error e ∧
      (∀ e', gather m (.elem t as ds) = .error e' → e = e') ∧
      (∀ data, gather m (.elem t as ds) = .ok data → e = .typeError) := by
  have hmo := meths_ok m t
  unfold readWith
  rw [rden_elem]
  show ∃ e, runReader tables m t as (leadText ds) (rdenKids tables ds) = _ ∧ _
  unfold runReader
  have htab : tables.rm m t = rm m t := rfl
  rw [htab]
  unfold objClass at hc
  simp only [gather]
  cases hm : rm m t with
  | bad e => rw [hm] at hc; cases hc
  | ref cls d => rw [hm] at hc; cases hc
  | mixed c' items key tags skipped =>
    rw [hm] at hc hmo
    cases hc
    simp only [methOk, Bool.and_eq_true, decide_eq_true_eq] at hmo
    rw [hmo.1.1.2] at ht
    cases ht
  | node c' items =>
    rw [hm] at hc hmo
    cases hc
    simp only [methOk, Bool.and_eq_true, List.all_eq_true] at hmo
    simp only
    cases hd : collect (items.map (readItem as (leadText ds) (rdenKids tables ds))) with
    | error e => exact ⟨e, rfl, fun e' h => (by cases h; rfl), fun _ h => by cases h⟩
    | ok data =>
      refine ⟨.typeError, ?_, fun _ h => (by cases h), fun _ _ => rfl⟩
      simp only
      apply build_rejects
      obtain ⟨ri, hri, htr⟩ := List.any_eq_true.1 (hmo.2 tag ht)
      obtain ⟨r, hr, hsub⟩ := collect_all hd ri hri
      obtain ⟨e, he, hf⟩ := item_trips htr (by rw [(child_first tag ds).1]; exact hs) hr
      exact ⟨e, hsub e he, hf⟩

end Verif.Codec.Reject
