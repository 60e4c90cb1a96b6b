import Verif.Codec.LoadCheck
import Verif.Codec.Order
import Verif.Props.Enums
/-
What is read has the right type.
-/
set_option linter.unusedSimpArgs false
set_option linter.unusedVariables false
namespace Verif.Codec.Load
open Verif.Py Verif.Enums Verif.Num Verif.Xml Verif.Xml.Spec Verif.Codec.Spec
open Verif.Ref (RefObj construct DestArg refClasses)

/-! ### Numbers -/

theorem canon_ok (c : Nat) (e : Int) :
    ((canon c e).1 = 0 ∧ (canon c e).2 = 0) ∨ (canon c e).1 % 10 ≠ 0 := by
  fun_induction canon c e with
  | case1 => simp
  | case2 c e h h' ih => exact ih
  | case3 c e h h' => exact .inr h'

/-- No trailing zeros. -/
def canonical : PyNum → Prop
  | .float (.fin _ c e) => (c = 0 ∧ e = 0) ∨ c % 10 ≠ 0
  | _ => True

theorem pyFloat_canonical {s : List Char} {f : PyFloat} (h : pyFloat s = some f) :
    canonical (.float f) := by
  unfold pyFloat at h
  simp only at h
  split at h
  · cases h; trivial
  · split at h
    · cases h; trivial
    · split at h
      · cases h
      · rename_i c e hp
        cases h
        exact canon_ok c e

theorem readNumber_canonical {s : List Char} {n : PyNum} (h : readNumber s = .ok n) :
    canonical n := by
  unfold readNumber at h
  split at h
  · cases h; trivial
  · split at h
    · rename_i f hf
      cases h
      exact pyFloat_canonical hf
    · cases h

theorem toFloat_canonical {n : PyNum} (h : canonical n) : canonical (.float (toFloat n)) := by
  cases n with
  | int i => exact canon_ok _ _
  | float f => exact h

/-- `0x` or `0b` at the beginning stays there. -/
theorem strip_prefix {x : Char} (hx : Num.isSpace x = false) (r : List Char) :
    ∃ r', strip ('0' :: x :: r) = '0' :: x :: r' := by
  unfold strip
  have h0 : Num.isSpace '0' = false := by decide
  rw [List.dropWhile_cons_of_neg (by simp [h0])]
  simp only [List.reverse_cons, List.append_assoc, List.cons_append, List.nil_append]
  generalize r.reverse = q
  induction q with
  | nil =>
    refine ⟨[], ?_⟩
    rw [List.nil_append, List.dropWhile_cons_of_neg (by simp [hx])]
    rfl
  | cons a q ih =>
    by_cases ha : Num.isSpace a = true
    · rw [List.cons_append, List.dropWhile_cons_of_pos ha]
      exact ih
    · rw [List.cons_append, List.dropWhile_cons_of_neg ha]
      exact ⟨q.reverse ++ [a], by simp⟩

theorem pyFloat_prefix {x : Char} (hx : x = 'x' ∨ x = 'b') (r : List Char) :
    pyFloat ('0' :: x :: r) = none := by
  obtain ⟨r', hr⟩ := strip_prefix (x := x) (by rcases hx with rfl | rfl <;> decide) r
  have hd : ∀ cs, digitsU 10 ('0' :: x :: cs) = none := by
    intro cs
    rcases hx with rfl | rfl <;> simp [digitsU, dig]
  have hp : parseDecimal ('0' :: x :: r') = none := by
    unfold parseDecimal
    have h1 : ∃ m ex, splitAt? (fun c => c = 'e' || c = 'E') ('0' :: x :: r') = ('0' :: x :: m, ex) := by
      rcases hx with rfl | rfl <;> simp [splitAt?]
    obtain ⟨m, ex, h1⟩ := h1
    have h2 : ∃ ip fp, splitAt? (· = '.') ('0' :: x :: m) = ('0' :: x :: ip, fp) := by
      rcases hx with rfl | rfl <;> simp [splitAt?]
    obtain ⟨ip, fp, h2⟩ := h2
    simp only [h1, h2, optDigits, hd]
    simp
  unfold pyFloat
  rw [hr]
  have h3 : takeSign ('0' :: x :: r') = (false, '0' :: x :: r') := rfl
  have h4 : ('0' :: x :: r').map lower ≠ "inf".toList ∧ ('0' :: x :: r').map lower ≠ "infinity".toList ∧
      ('0' :: x :: r').map lower ≠ "nan".toList := by
    have : lower '0' = '0' := by decide
    simp [this]
  simp only [h3, hp, h4.1, h4.2.1, h4.2.2, or_self, if_false]

theorem pyInt0_prefix {x : Char} (hx : x = 'x' ∨ x = 'b') (r : List Char) {i : Int}
    (h : pyInt0 ('0' :: x :: r) = some i) : 0 ≤ i := by
  obtain ⟨r', hr⟩ := strip_prefix (x := x) (by rcases hx with rfl | rfl <;> decide) r
  unfold pyInt0 at h
  rw [hr] at h
  have h3 : takeSign ('0' :: x :: r') = (false, '0' :: x :: r') := rfl
  simp only [h3, Option.map_eq_some_iff] at h
  obtain ⟨n, -, rfl⟩ := h
  simp [withSign]

theorem numericalValue_ok {s : List Char} {n : NumericalValue} (h : numericalValueOfText s = .ok n) :
    canonical n.value ∧ (n.format = .default ∨ ∃ i : Int, 0 ≤ i ∧
      (n = ⟨.int i, .hexadecimal⟩ ∨ n = ⟨.int i, .binary⟩)) := by
  unfold numericalValueOfText at h
  simp only at h
  cases hi : pyInt0 s with
  | some i =>
    rw [hi] at h
    simp only at h
    split at h
    · rename_i r
      cases h
      exact ⟨trivial, .inr ⟨i, pyInt0_prefix (.inl rfl) _ hi, .inl rfl⟩⟩
    · rename_i r
      cases h
      exact ⟨trivial, .inr ⟨i, pyInt0_prefix (.inr rfl) _ hi, .inr rfl⟩⟩
    · cases h
      exact ⟨trivial, .inl rfl⟩
  | none =>
    rw [hi] at h
    simp only at h
    cases hf : pyFloat s with
    | none => rw [hf] at h; cases h
    | some f =>
      rw [hf] at h
      simp only at h
      have hc := pyFloat_canonical hf
      split at h
      · rw [pyFloat_prefix (.inl rfl)] at hf; cases hf
      · rw [pyFloat_prefix (.inr rfl)] at hf; cases hf
      · cases h
        exact ⟨hc, .inl rfl⟩

/-! ### Enumerations and references -/

theorem texts_ok : (allXmlMembers.all fun m => enumOk m) = true := by decide +kernel

theorem xmlToEnum_ok {cls t : String} {m : Member} (h : xmlToEnum cls t defaultVersion = .ok m) :
    m.cls = cls ∧ enumOk m = true ∧ hasXml m.cls = true := by
  obtain ⟨h1, h2, -⟩ := Verif.Props.Enums.C16_read_write cls t defaultVersion m h
  have hx : hasXml m.cls = true := by
    cases hx : hasXml m.cls with
    | true => rfl
    | false =>
      have := (Verif.Props.Enums.C16_no_xml m t defaultVersion hx).2
      rw [h1, h] at this
      cases this
  exact ⟨h1, List.all_eq_true.1 texts_ok m (mem_allXmlMembers h2 hx), hx⟩

theorem checkDest_ok {cn value : String} {accepted : List String} {d : Verif.Ref.PyVal} {r : RefObj}
    (h : Verif.Ref.checkDest cn accepted value d = .ok r) : r.cls = cn ∧ r.dest ∈ accepted := by
  unfold Verif.Ref.checkDest at h
  split at h
  · rename_i m hm
    cases h
    refine ⟨rfl, ?_⟩
    unfold Verif.Ref.destIn at hm
    split at hm
    · split at hm
      · cases hm; assumption
      · cases hm
    · cases hm
  · cases h

theorem baseInit_ok {cn value : String} {accepted : List String} {d : Verif.Ref.PyVal} {r : RefObj}
    (h : Verif.Ref.baseInit cn accepted value d = .ok r) : r.cls = cn ∧ r.dest ∈ accepted := by
  unfold Verif.Ref.baseInit at h
  split at h
  · split at h
    · exact checkDest_ok h
    · cases h
    · cases h
  · exact checkDest_ok h

theorem construct_ok {cn value : String} {d : DestArg} {r : RefObj}
    (h : construct cn value d = .ok r) :
    r.cls = cn ∧ ∃ rc, dictGet refClasses cn = some rc ∧ r.dest ∈ rc.accepted := by
  unfold construct at h
  split at h
  · cases h
  · rename_i rc hrc
    split at h
    · exact ⟨(baseInit_ok h).1, rc, hrc, (baseInit_ok h).2⟩
    · split at h
      · exact ⟨(baseInit_ok h).1, rc, hrc, (baseInit_ok h).2⟩
      · exact ⟨(baseInit_ok h).1, rc, hrc, (baseInit_ok h).2⟩

theorem construct_given {cn value e n : String} {r : RefObj}
    (h : construct cn value (.given (.enum e n)) = .ok r) : r.dest = n := by
  unfold construct at h
  split at h
  · cases h
  · simp only [Verif.Ref.baseInit, Verif.Ref.checkDest] at h
    split at h
    · rename_i m hm
      cases h
      unfold Verif.Ref.destIn at hm
      split at hm
      · rename_i heq
        split at hm
        · cases hm; cases heq; rfl
        · cases hm
      · cases hm
    · cases h

/-! ### Single values -/

/-- A value as it comes from a file: it has the right type if it is writable. -/
def RawS : Val Cls → Prop
  | .str _ => True
  | .bool _ => True
  | .num n => canonical n
  | .numval n => ∃ i : Int, 0 ≤ i ∧ (n = ⟨.int i, .hexadecimal⟩ ∨ n = ⟨.int i, .binary⟩)
  | .enum m => enumOk m = true ∧ hasXml m.cls = true
  | .limit n m => canonical n ∧ m.cls = "IntervalType" ∧ enumOk m = true
  | .ref r => enumOk ⟨"IdentifiableSubTypes", r.dest⟩ = true ∧
      ∃ rc, dictGet refClasses r.cls = some rc ∧ r.dest ∈ rc.accepted
  | .list _ => False
  | .obj c fs => writable (.obj c fs) = true → hasS tables (.obj c fs) (.cls c) = true

theorem floatOk_of {f : PyFloat} (h : canonical (.float f)) (hs : shortNum (.float f) = true) :
    floatOk f = true ∧ f ≠ .fin true 0 0 := by
  cases f with
  | fin neg c e =>
    simp only [canonical] at h
    simp only [shortNum, Bool.and_eq_true, Bool.or_eq_true, decide_eq_true_eq,
      Bool.not_eq_true', Bool.and_eq_false_imp, decide_eq_false_iff_not] at hs
    refine ⟨?_, ?_⟩
    · simp only [floatOk, Bool.and_eq_true, Bool.or_eq_true, decide_eq_true_eq]
      exact ⟨h, hs.1⟩
    · rintro ⟨⟩
      exact hs.2 rfl rfl
  | inf n => simp [floatOk]
  | nan => simp [floatOk]

theorem single_ok {v : Val Cls} {alts : List (STy Cls)} (hr : RawS v) (hw : writable v = true)
    (hn : notStr v = true) (hnum : alts.contains .numFloat = true → alts.contains .int = true)
    (href : ∀ r cls ds, v = .ref r → .refTo cls ds ∈ alts → r.dest ∈ ds)
    (hm : ∀ c, .member c ∉ alts) (hf : (alts.any fun a => fitsS a v) = true) :
    alts.any (hasS tables v) = true := by
  simp only [List.any_eq_true] at hf ⊢
  obtain ⟨a, ha, hf⟩ := hf
  cases v with
  | str s => cases hn
  | bool b =>
    cases a <;> simp [fitsS] at hf
    exact ⟨_, ha, rfl⟩
  | num n =>
    cases n with
    | int i =>
      cases a <;> simp [fitsS] at hf
      · exact ⟨_, ha, rfl⟩
      · exact ⟨_, ha, by simpa [hasS] using hf⟩
      · exact ⟨.int, by simpa using hnum (by simpa using ha), rfl⟩
    | float f =>
      obtain ⟨h1, h2⟩ := floatOk_of hr (by simpa [writable] using hw)
      cases a <;> simp [fitsS] at hf
      all_goals exact ⟨_, ha, by simp [hasS, h1, h2]⟩
  | numval n =>
    cases a <;> simp [fitsS] at hf
    obtain ⟨i, hi, rfl | rfl⟩ := hr
    all_goals exact ⟨_, ha, by simpa [hasS] using hi⟩
  | enum m =>
    cases a <;> simp [fitsS] at hf
    · exact ⟨_, ha, by simp [hasS, hf, hr.1]⟩
    · exact absurd ha (hm _)
  | limit n m =>
    cases a <;> simp [fitsS] at hf
    refine ⟨_, ha, ?_⟩
    have hno : numOk n = true := by
      cases n with
      | int i => rfl
      | float f => exact (floatOk_of hr.1 (by simpa [writable] using hw)).1
    simp [hasS, hno, hr.2.1, hr.2.2]
  | ref r =>
    obtain ⟨h1, rc, h2, h3⟩ := hr
    simp only [writable, Bool.and_eq_true, decide_eq_true_eq] at hw
    have hrv : refValOk r = true := by simp [refValOk, hw.1, h1, h2, h3]
    cases a <;> simp [fitsS] at hf
    · exact ⟨_, ha, by simp [hasS, hf, hrv]⟩
    · exact ⟨_, ha, by simp [hasS, hf, hrv, href r _ _ rfl ha]⟩
  | list vs => exact hr.elim
  | obj c fs =>
    cases a <;> simp [fitsS] at hf
    subst hf
    exact ⟨_, ha, hr hw⟩

/-! ### Conversions -/

theorem conv_raw {c : Conv} {t : Option String} {v : Val Cls} (h : c.run t = .ok (some v)) :
    RawS v := by
  cases t with
  | none => cases c <;> simp [Conv.run] at h <;> subst h <;> trivial
  | some t =>
    cases c
    case enum cls =>
      simp only [Conv.run] at h
      split at h
      · rename_i m hm
        cases h
        exact (xmlToEnum_ok hm).2
      · cases h
    case number =>
      simp only [Conv.run] at h
      split at h
      · rename_i n hn
        cases h
        exact readNumber_canonical hn
      · cases h
    case castFloat =>
      simp only [Conv.run] at h
      split at h
      · rename_i n hn
        cases h
        exact toFloat_canonical (readNumber_canonical hn)
      · cases h
    case float =>
      simp only [Conv.run] at h
      split at h
      · rename_i n hn
        cases h
        exact pyFloat_canonical hn
      · cases h
    case numVal =>
      simp only [Conv.run] at h
      split at h
      · rename_i n hn
        cases h
        exact (numericalValue_ok hn).1
      · rename_i n hd hn
        cases h
        rcases (numericalValue_ok hn).2 with h' | h'
        · obtain ⟨a, b⟩ := n
          cases h'
          exact (hd _ rfl).elim
        · exact h'
      · cases h
    case numPlain =>
      simp only [Conv.run] at h
      split at h
      · rename_i n hn
        cases h
        exact (numericalValue_ok hn).1
      · cases h
    all_goals
      simp only [Conv.run] at h
      repeat' split at h
      all_goals first
        | (cases h; trivial)
        | (simp at h; subst h; trivial)
        | cases h

theorem conv_str {c : Conv} {t : Option String} {alts : List (STy Cls)} {s : String}
    (h : c.run t = .ok (some (.str s : Val Cls))) (hc : convStr alts c = true) (hs : s ≠ "")
    (hf : ∃ a ∈ alts, fitsS a (.str s : Val Cls) = true) :
    ∃ a ∈ alts, hasS tables (.str s) a = true := by
  cases c
  case text =>
    simp only [convStr, Bool.or_eq_true, List.contains_iff_mem, decide_eq_true_eq] at hc
    rcases hc with hc | rfl
    · exact ⟨.str, hc, by simpa [hasS] using hs⟩
    · exact ⟨.format, List.mem_singleton.2 rfl, by simpa [hasS, hs, fitsS] using hf⟩
  case str =>
    simp only [convStr, Bool.or_eq_true, List.contains_iff_mem, decide_eq_true_eq] at hc
    rcases hc with hc | rfl
    · exact ⟨.str, hc, by simpa [hasS] using hs⟩
    · exact ⟨.format, List.mem_singleton.2 rfl, by simpa [hasS, hs, fitsS] using hf⟩
  case intOrText =>
    cases t with
    | none => simp [Conv.run] at h
    | some t =>
      simp only [Conv.run] at h
      split at h
      · cases h
      · rename_i hp
        cases h
        exact ⟨.strNotInt, by simpa [convStr] using hc, by simp [hasS, hs, hp]⟩
  case int0OrText =>
    cases t with
    | none => simp [Conv.run] at h
    | some t =>
      simp only [Conv.run] at h
      split at h
      · cases h
      · rename_i hp
        cases h
        simp only [convStr, decide_eq_true_eq] at hc
        subst hc
        exact ⟨.alignment, by simp, by simpa [hasS, hs, hp, fitsS] using hf⟩
  all_goals
    cases t with
    | none => simp [Conv.run] at h
    | some t =>
      simp only [Conv.run] at h
      repeat' split at h
      all_goals cases h

/-! ### Elements -/

/-- What a reader method returns is of its class. -/
def Res : RMethod Cls RM → Val Cls → Prop
  | .node c _, v => ∃ fs, v = .obj c fs
  | .mixed c _ _ _ _, v => ∃ fs, v = .obj c fs
  | .ref _ _, v => ∃ r, v = .ref r
  | .bad _, _ => False

/-- Whatever a reader method makes of the element. -/
def Fine (k : RD) : Prop := ∀ m v, k.read m = .ok v → RawS v ∧ Res (rm m k.tag) v

theorem res_notStr {x : RMethod Cls RM} {v : Val Cls} (h : Res x v) : notStr v = true := by
  cases x with
  | node c i => obtain ⟨fs, rfl⟩ := h; rfl
  | mixed c i k t s => obtain ⟨fs, rfl⟩ := h; rfl
  | ref c d => obtain ⟨r, rfl⟩ := h; rfl
  | bad e => exact h.elim

/-- A value of the attribute, by the statement that stored it. -/
def Kind (g : Field Cls) (w : Val Cls) : Prop :=
  RawS w ∧ (∀ s, w = .str s → s ≠ "" →
    (∃ a ∈ g.alts, fitsS a (.str s : Val Cls) = true) → ∃ a ∈ g.alts, hasS tables (.str s) a = true) ∧
  (g.shape = .mixed → (∃ s, w = .str s ∧ .str ∈ g.alts) ∨ ∃ c fs, w = .obj c fs ∧ .cls c ∈ g.alts)

theorem limit_raw {k : RD} {v : Val Cls} (h : readLimit k = .ok (some v)) :
    RawS v ∧ notStr v = true := by
  unfold readLimit at h
  split at h
  · cases h
  · simp only at h
    split at h
    · rename_i m n hm hn
      cases h
      refine ⟨⟨readNumber_canonical hn, ?_⟩, rfl⟩
      split at hm
      · cases hm
        exact ⟨rfl, by decide +kernel⟩
      · exact ⟨(xmlToEnum_ok hm).1, (xmlToEnum_ok hm).2.1⟩
    · cases h
    · cases h

theorem atom_kind {k : RD} (hk : Fine k) {a : RAtom RM} {v : Val Cls} {g : Field Cls}
    (h : readAtom k a = .ok (some v)) (ha : atomStr g.alts a = true) (hg : g.shape ≠ .mixed) :
    Kind g v := by
  cases a with
  | conv c => 
    refine ⟨conv_raw h, ?_, fun h => absurd h hg⟩
    rintro s rfl hs hf
    exact conv_str h ha hs hf
  | meth m =>
    simp only [readAtom] at h
    split at h
    · rename_i w hw
      cases h
      obtain ⟨h1, h2⟩ := hk m v hw
      refine ⟨h1, ?_, fun h => absurd h hg⟩
      rintro s rfl
      cases res_notStr h2
    · cases h
  | limit =>
    obtain ⟨h1, h2⟩ := limit_raw h
    refine ⟨h1, ?_, fun h => absurd h hg⟩
    rintro s rfl
    cases h2

theorem atom_raw {k : RD} (hk : Fine k) {a : RAtom RM} {v : Val Cls}
    (h : readAtom k a = .ok (some v)) : RawS v := by
  cases a with
  | conv c => exact conv_raw h
  | meth m =>
    simp only [readAtom] at h
    split at h
    · rename_i w hw
      cases h
      exact (hk m v hw).1
    · cases h
  | limit => exact (limit_raw h).1

/-- Values of an entry. -/
def RawV : Val Cls → Prop
  | .list vs => ∀ w ∈ vs, RawS w
  | v => RawS v

/-- The entry of the attribute. -/
def Slot (g : Field Cls) : Val Cls → Prop
  | .list vs => g.shape ≠ .one ∧ (∀ n, g.shape = .many (some n) → vs.length ≤ n) ∧
      ∀ w ∈ vs, Kind g w
  | v => Kind g v

/-- An entry of the constructor's arguments. -/
def Entry (c : Cls) (key : String) (v : Val Cls) : Prop :=
  RawV v ∧ ∀ g ∈ covered c, g.param = key → Slot g v

theorem rawV_of {v : Val Cls} (h : RawS v) : RawV v := by
  cases v <;> first | exact h | exact h.elim

theorem slot_of {g : Field Cls} {v : Val Cls} (h : Kind g v) : Slot g v := by
  cases v <;> first | exact h | exact h.1.elim

theorem pickTag_mem {t : String} {alts : RAlts RM} {a : RAtom RM} (h : pickTag t alts = some a) :
    ∃ x ∈ alts, x.2 = a := by
  induction alts with
  | nil => cases h
  | cons x alts ih =>
    obtain ⟨o, b⟩ := x
    simp only [pickTag] at h
    split at h
    · cases h; exact ⟨_, List.mem_cons_self, rfl⟩
    · obtain ⟨y, hy, rfl⟩ := ih h
      exact ⟨y, by simp [hy], rfl⟩

theorem call_mem {k : RD} {alts : RAlts RM} {miss : Option PyErr} {vs : List (Option (Val Cls))}
    {v : Val Cls} (h : readCall alts miss k = .ok vs) (hv : some v ∈ vs) :
    ∃ x ∈ alts, readAtom k x.2 = .ok (some v) := by
  unfold readCall at h
  split at h
  · rename_i a ha
    obtain ⟨x, hx, rfl⟩ := pickTag_mem ha
    split at h
    · rename_i w hw
      cases h
      simp only [List.mem_singleton] at hv
      subst hv
      exact ⟨x, hx, hw⟩
    · cases h
  · split at h
    · cases h; cases hv
    · cases h

theorem collect_mem {α β : Type} {f : α → Except PyErr (List β)} {l : List α} {r : List β} {x : β}
    (h : collect (l.map f) = .ok r) (hx : x ∈ r) : ∃ a ∈ l, ∃ r', f a = .ok r' ∧ x ∈ r' := by
  induction l generalizing r with
  | nil => cases h; cases hx
  | cons a l ih =>
    simp only [List.map_cons] at h
    cases ha : f a with
    | error e => rw [ha] at h; cases h
    | ok r1 =>
      rw [ha] at h
      simp only [collect] at h
      split at h
      · cases h
      · rename_i r2 h2
        cases h
        rcases List.mem_append.1 hx with hx | hx
        · exact ⟨a, by simp, r1, ha, hx⟩
        · obtain ⟨a', h1, h3⟩ := ih h2 hx
          exact ⟨a', by simp [h1], h3⟩

theorem elem_mem {k : RD} {alts : RAlts RM} {miss : Option PyErr} {vs : List (Val Cls)}
    {v : Val Cls} (h : readElem alts miss k = .ok vs) (hv : v ∈ vs) :
    ∃ x ∈ alts, readAtom k x.2 = .ok (some v) := by
  unfold readElem at h
  split at h
  · rename_i w hw
    cases h
    simp only [List.mem_singleton] at hv
    subst hv
    exact call_mem hw (by simp)
  · cases h; cases hv
  · cases h
  · cases h

theorem list_mem {ks : List RD} {alts : RAlts RM} {miss : Option PyErr} {vs : List (Val Cls)}
    {v : Val Cls} (h : readList alts miss ks = .ok vs) (hv : v ∈ vs) :
    ∃ k ∈ ks, ∃ x ∈ alts, readAtom k x.2 = .ok (some v) := by
  obtain ⟨k, hk, r, hr, hv⟩ := collect_mem h hv
  exact ⟨k, hk, elem_mem hr hv⟩

theorem childOf_mem {t : String} {ks : List RD} {k : RD} (h : childOf t ks = some k) : k ∈ ks := by
  unfold childOf at h
  have := List.mem_of_head? h
  exact (List.mem_filter.1 this).1

theorem inner_mem {i : Inner} {k k' : RD} (h : i.get k = some k') : k' = k ∨ k' ∈ k.kids := by
  cases i with
  | self => cases h; exact .inl rfl
  | first => exact .inr (List.mem_of_head? h)
  | tag t => exact .inr (childOf_mem h)

theorem item_entry {as : Attrs} {x : Option String} {kids : List RD} (hk : ∀ k ∈ kids, Fine k)
    (hkk : ∀ k ∈ kids, ∀ k' ∈ k.kids, Fine k') {ri : RItem RM} {c : Cls} {data : Data Cls}
    (hi : itemOk c ri = true) (h : readItem as x kids ri = .ok data) {key : String} {v : Val Cls}
    (hv : (key, some v) ∈ data) : key = ri.key ∧ Entry c key v := by
  have hst : ∀ g ∈ covered c, g.param = ri.key → itemStr g ri = true := by
    intro g hg hp
    simp only [itemOk, List.all_eq_true, Bool.or_eq_true] at hi
    rcases hi g hg with h' | h'
    · simp [hp] at h'
    · exact h'
  cases ri with
  | text k co =>
    simp only [readItem] at h
    split at h
    · rename_i w hw
      cases h
      simp only [List.mem_singleton, Prod.mk.injEq] at hv
      obtain ⟨rfl, rfl⟩ := hv
      refine ⟨rfl, rawV_of (conv_raw hw), fun g hg hp => slot_of ⟨conv_raw hw, ?_, ?_⟩⟩
      all_goals
        have := hst g hg hp
        simp only [itemStr, Bool.and_eq_true, decide_eq_true_eq] at this
      · rintro s rfl hs hf
        exact conv_str hw this.2 hs hf
      · intro h; rw [this.1] at h; cases h
    · cases h
  | noKids e =>
    simp only [readItem] at h
    split at h
    · cases h; cases hv
    · cases h
  | attr name k co req =>
    simp only [readItem] at h
    split at h
    · split at h
      · cases h
      · cases h; cases hv
    · split at h
      · rename_i w hw
        cases h
        simp only [List.mem_singleton, Prod.mk.injEq] at hv
        obtain ⟨rfl, rfl⟩ := hv
        refine ⟨rfl, rawV_of (conv_raw hw), fun g hg hp => slot_of ⟨conv_raw hw, ?_, ?_⟩⟩
        all_goals
          have := hst g hg hp
          simp only [itemStr, Bool.and_eq_true, decide_eq_true_eq] at this
        · rintro s rfl hs hf
          exact conv_str hw this.2 hs hf
        · intro h; rw [this.1] at h; cases h
      · cases h
  | required t k =>
    simp only [readItem] at h
    split at h
    · cases h
    · rename_i k' hk'
      cases h
      simp only [List.mem_singleton, Prod.mk.injEq] at hv
      obtain ⟨rfl, hv⟩ := hv
      obtain ⟨s, hs, rfl⟩ := Option.map_eq_some_iff.1 hv.symm
      refine ⟨rfl, trivial, fun g hg hp => ⟨trivial, ?_, ?_⟩⟩
      all_goals
        have := hst g hg hp
        simp only [itemStr, Bool.and_eq_true, decide_eq_true_eq] at this
      · rintro s' ⟨⟩ hs' -
        exact ⟨.str, by simpa using this.2, by simpa [hasS] using hs'⟩
      · intro h; rw [this.1] at h; cases h
  | one t k inner alts miss ck =>
    simp only [readItem] at h
    split at h
    · cases h; cases hv
    · rename_i k1 hk1
      split at h
      · cases h; cases hv
      · rename_i k2 hk2
        have hf : Fine k2 := by
          rcases inner_mem hk2 with rfl | h'
          · exact hk _ (childOf_mem hk1)
          · exact hkk _ (childOf_mem hk1) _ h'
        split at h
        · rename_i vs hvs
          cases h
          simp only [List.mem_map, Prod.mk.injEq] at hv
          obtain ⟨w, hw, rfl, rfl⟩ := hv
          obtain ⟨y, hy, hya⟩ := call_mem hvs hw
          refine ⟨rfl, rawV_of (atom_raw hf hya), fun g hg hp => slot_of ?_⟩
          have := hst g hg hp
          simp only [itemStr, Bool.and_eq_true, decide_eq_true_eq, List.all_eq_true] at this
          exact atom_kind hf hya (this.2 y hy) (by rw [this.1]; simp)
        · split at h
          · cases h; cases hv
          · cases h
  | many t k alts miss max =>
    simp only [readItem] at h
    split at h
    · cases h; cases hv
    · rename_i k1 hk1
      split at h
      · cases h
      · rename_i vs hvs
        have hsl : (∀ m, max = some m → vs.length ≤ m) → Entry c k (.list vs) := by
          intro hm
          refine ⟨?_, ?_⟩
          · intro w hw
            obtain ⟨k2, hk2, y, hy, hya⟩ := list_mem hvs hw
            exact atom_raw (hkk _ (childOf_mem hk1) _ hk2) hya
          · intro g hg hp
            have := hst g hg hp
            simp only [itemStr, Bool.and_eq_true, List.all_eq_true] at this
            refine ⟨?_, ?_, ?_⟩
            · intro hs; rw [hs] at this; simp at this
            · intro n hs
              rw [hs] at this
              simp only at this
              split at this
              · exact Nat.le_trans (hm _ rfl) (by simpa using this.1)
              · simp at this
            · intro w hw
              obtain ⟨k2, hk2, y, hy, hya⟩ := list_mem hvs hw
              refine atom_kind (hkk _ (childOf_mem hk1) _ hk2) hya (this.2 y hy) ?_
              intro hs; rw [hs] at this; simp at this
        split at h
        · split at h
          · cases h
          · rename_i n hn
            cases h
            simp only [List.mem_singleton, Prod.mk.injEq, Option.some.injEq] at hv
            obtain ⟨rfl, rfl⟩ := hv
            exact ⟨rfl, hsl (by rintro m ⟨⟩; omega)⟩
        · cases h
          simp only [List.mem_singleton, Prod.mk.injEq, Option.some.injEq] at hv
          obtain ⟨rfl, rfl⟩ := hv
          exact ⟨rfl, hsl (by rintro m ⟨⟩)⟩
  | flat k alts miss =>
    simp only [readItem] at h
    split at h
    · cases h
    · rename_i vs hvs
      cases h
      simp only [List.mem_singleton, Prod.mk.injEq, Option.some.injEq] at hv
      obtain ⟨rfl, rfl⟩ := hv
      refine ⟨rfl, ?_, ?_⟩
      · intro w hw
        obtain ⟨k2, hk2, y, hy, hya⟩ := list_mem hvs hw
        exact atom_raw (hk _ hk2) hya
      · intro g hg hp
        have := hst g hg hp
        simp only [itemStr, Bool.and_eq_true, List.all_eq_true] at this
        refine ⟨?_, ?_, ?_⟩
        · intro hs; rw [hs] at this; simp at this
        · intro n hs; rw [hs] at this; simp at this
        · intro w hw
          obtain ⟨k2, hk2, y, hy, hya⟩ := list_mem hvs hw
          refine atom_kind (hk _ hk2) hya (this.2 y hy) ?_
          intro hs; rw [hs] at this; simp at this
  | choice k alts req =>
    simp only [readItem] at h
    split at h
    · split at h
      · cases h
      · cases h; cases hv
    · rename_i k1 a hka
      split at h
      · rename_i w hw
        cases h
        simp only [List.mem_singleton, Prod.mk.injEq] at hv
        obtain ⟨rfl, rfl⟩ := hv
        have hm : (k1, a) ∈ alts.filterMap (fun a => (childOf a.1 kids).map (fun k => (k, a.2))) := by
          rw [hka]; simp
        obtain ⟨y, hy, hya⟩ := List.mem_filterMap.1 hm
        obtain ⟨k2, hk2, he⟩ := Option.map_eq_some_iff.1 hya
        cases he
        have hf := hk _ (childOf_mem hk2)
        refine ⟨rfl, rawV_of (atom_raw hf hw), fun g hg hp => slot_of ?_⟩
        have := hst g hg hp
        simp only [itemStr, Bool.and_eq_true, decide_eq_true_eq, List.all_eq_true] at this
        exact atom_kind hf hw (this.2 y hy) (by rw [this.1]; simp)
      · cases h
    · cases h
  | admin =>
    simp only [readItem] at h
    split at h
    · cases h; cases hv
    · split at h
      · cases h; cases hv
      · cases h

end Verif.Codec.Load
