import Verif.Codec.Sound
import Verif.Props.Xml
/-
From elements to text: strings without markup characters are written as text that parses back
into the same elements.
-/
set_option linter.unusedSimpArgs false
set_option linter.unusedVariables false
set_option linter.unusedSectionVars false
namespace Verif.Codec
open Verif.Py Verif.Enums Verif.Num Verif.Xml Verif.Xml.Spec
open Verif.Ref (RefObj construct DestArg refClasses)

variable {C W R : Type} [DecidableEq C] [DecidableEq W] [DecidableEq R]

/-- No markup character, no carriage return, nothing that XML does not allow. -/
def textChar (c : Char) : Bool :=
  isXmlChar c && c ≠ '<' && c ≠ '>' && c ≠ '&' && c ≠ '\r'

/-- In attributes, also no quote, tab or newline. -/
def attrChar (c : Char) : Bool := textChar c && c ≠ '"' && c ≠ '\n' && c ≠ '\t'

/-- Text without markup. -/
def plainText (s : String) : Bool := s.toList.all textChar

def plainAttr (s : String) : Bool := s.toList.all attrChar

mutual
/-- No string in the object contains markup; attributes named in `an` become XML attributes. -/
def plainVal (an : List String) : Val C → Bool
  | .str s => plainText s
  | .ref r => plainText r.value
  | .list vs => plainList an vs
  | .obj _ fs => plainFields an fs
  | _ => true
def plainFields (an : List String) : List (String × Val C) → Bool
  | [] => true
  | (k, v) :: rest =>
    plainVal an v && (k ∉ an || match v with | .str s => plainAttr s | _ => true) &&
      plainFields an rest
def plainList (an : List String) : List (Val C) → Bool
  | [] => true
  | v :: vs => plainVal an v && plainList an vs
end

/-! ### Names in the tables -/

def nameOk (s : String) : Bool := s ≠ "" && s.toList.all isNameChar

theorem nameOk_iff {s : String} : nameOk s = true ↔ Name s := by
  simp [nameOk, Name]

def argSafe (arg : Option String) : Bool :=
  match arg with
  | none => true
  | some t => nameOk t

def atomSafe : WAtom W → Bool
  | .meth _ arg => argSafe arg
  | .text tag _ => nameOk tag
  | .limit tag => nameOk tag

def itemSafe : WItem C W → Bool
  | .one _ _ wrap alts _ => argSafe wrap && alts.all fun a => atomSafe a.2
  | .many _ _ wrap alts _ => argSafe wrap && alts.all fun a => atomSafe a.2
  | .each _ wrap alts _ => nameOk wrap && alts.all fun a => atomSafe a.2

def attrSafe (an : List String) (wa : WAttr) : Bool := nameOk wa.name && (wa.enum || wa.field ∈ an)

def attrsSafe (an : List String) (A : List WAttr) : Bool :=
  A.all (attrSafe an) && decide ((A.map (·.name)).Nodup)

/-- All tags and attribute names of the method are names. -/
def methSafe (an : List String) : WMethod C W → Bool
  | .node _ fixed A _ I => argSafe fixed && attrsSafe an A && I.all itemSafe
  | .ref _ fixed => argSafe fixed
  | .leaf _ tag A _ _ => nameOk tag && attrsSafe an A
  | .mixed _ fixed A _ alts => argSafe fixed && attrsSafe an A && alts.all fun a => atomSafe a.2
  | .bad _ => true

/-! ### Texts of single values -/

theorem attr_text {c : Char} (h : attrChar c = true) : textChar c = true := by
  simp only [attrChar, Bool.and_eq_true] at h
  exact h.1.1.1

theorem digit_attr (n : Nat) : attrChar (Nat.digitChar n) = true := by
  by_cases h : n < 16
  · exact (by decide : ∀ n < 16, attrChar (Nat.digitChar n) = true) n h
  · have : Nat.digitChar n = '*' := by
      unfold Nat.digitChar
      repeat rw [if_neg (by omega)]
    rw [this]
    decide

theorem decStr_attr (n : Nat) : ∀ c ∈ decStr n, attrChar c = true := by
  intro c hc
  simp only [decStr, List.mem_map] at hc
  obtain ⟨d, hd, rfl⟩ := hc
  exact digit_attr d

theorem numChar_attr {c : Char} (h : numChar c) : attrChar c = true := by
  rcases h with ⟨d, -, rfl⟩ | rfl | rfl | rfl
  · exact digit_attr d
  all_goals decide

theorem sign_attr (neg : Bool) : ∀ c ∈ signStr neg, attrChar c = true := by
  cases neg <;> simp [signStr] <;> decide

theorem formatFloat_attr {f : PyFloat} {t : List Char} (h : formatFloat f = .ok t) :
    ∀ c ∈ t, attrChar c = true := by
  cases f with
  | inf neg =>
    simp only [formatFloat, Except.ok.injEq] at h
    subst h
    cases neg <;> decide
  | nan =>
    simp only [formatFloat, Except.ok.injEq] at h
    subst h
    decide
  | fin neg m e =>
    simp only [formatFloat] at h
    intro c hc
    split at h
    · simp only [Except.ok.injEq] at h
      subst h
      simp only [List.mem_append, List.mem_singleton] at hc
      rcases hc with hc | rfl
      · exact sign_attr _ c hc
      · decide
    · split at h
      · split at h
        · simp at h
        · simp only [Except.ok.injEq] at h
          subst h
          simp only [List.mem_append] at hc
          rcases hc with hc | hc
          · exact sign_attr _ c hc
          · exact decStr_attr _ c hc
      · simp only [Except.ok.injEq] at h
        subst h
        exact numChar_attr (numChar_decimalStr _ _ _ c hc)

theorem formatNumber_attr {n : PyNum} {t : List Char} (h : formatNumber n = .ok t) :
    ∀ c ∈ t, attrChar c = true := by
  cases n with
  | int i =>
    simp only [formatNumber, Except.ok.injEq] at h
    subst h
    exact fun c hc => numChar_attr (numChar_intStr i c hc)
  | float f => exact formatFloat_attr h

theorem radix_attr (b : Nat) (i : Int) : ∀ c ∈ radixStr b i, attrChar c = true := by
  intro c hc
  simp only [radixStr, List.mem_append, List.mem_map] at hc
  rcases hc with hc | ⟨d, -, rfl⟩
  · exact sign_attr _ c hc
  · exact digit_attr d

theorem sci_attr (i : Int) : ∀ c ∈ sciStr i, attrChar c = true := by
  have key : ∀ (m k : Nat), ∀ c ∈ signStr (i < 0) ++
      (if m = 0 then List.replicate 7 '0' else decStr m).take 1 ++
      '.' :: (if m = 0 then List.replicate 7 '0' else decStr m).drop 1 ++ ['e', '+'] ++
      (if k < 10 then '0' :: decStr k else decStr k), attrChar c = true := by
    intro m k c hc
    have hds : ∀ c ∈ (if m = 0 then List.replicate 7 '0' else decStr m), attrChar c = true := by
      intro c hc
      split at hc
      · have := List.eq_of_mem_replicate hc
        subst this; decide
      · exact decStr_attr m c hc
    simp only [List.mem_append, List.mem_cons, List.not_mem_nil, or_false] at hc
    rcases hc with (((hc | hc) | rfl | hc) | rfl | rfl) | hc
    · exact sign_attr _ c hc
    · exact hds c (List.mem_of_mem_take hc)
    · decide
    · exact hds c (List.mem_of_mem_drop hc)
    · decide
    · decide
    · split at hc
      · simp only [List.mem_cons] at hc
        rcases hc with rfl | hc
        · decide
        · exact decStr_attr k c hc
      · exact decStr_attr k c hc
  intro c hc
  unfold sciStr at hc
  exact key _ _ c hc

theorem numericalValue_attr {n : NumericalValue} {t : List Char}
    (h : formatNumericalValue n = .ok t) : ∀ c ∈ t, attrChar c = true := by
  obtain ⟨v, f⟩ := n
  unfold formatNumericalValue at h
  cases f <;> simp only at h
  · exact formatNumber_attr h
  · exact formatNumber_attr h
  · cases v <;> simp only [Except.ok.injEq, reduceCtorEq] at h
    subst h
    intro c hc
    simp only [List.mem_cons] at hc
    rcases hc with rfl | rfl | hc
    · decide
    · decide
    · exact radix_attr _ _ c hc
  · cases v <;> simp only [Except.ok.injEq, reduceCtorEq] at h
    subst h
    intro c hc
    simp only [List.mem_cons] at hc
    rcases hc with rfl | rfl | hc
    · decide
    · decide
    · exact radix_attr _ _ c hc
  · cases v <;> simp only [Except.ok.injEq, reduceCtorEq] at h
    subst h
    exact sci_attr _

/-- The text of an entry. -/
def tText : TEntry → String
  | .plain t => t
  | .versioned t _ => t

theorem enum_texts : (enumToXmlMap.all fun row => row.2.all fun t => plainAttr (tText t)) = true := by
  decide +kernel

theorem enum_attr {m : Member} {v : Nat} {t : String} (h : enumToXml m v = .ok t) :
    plainAttr t = true := by
  have hall := enum_texts
  simp only [List.all_eq_true] at hall
  unfold enumToXml at h
  cases hr : rawText m with
  | error e => simp [hr] at h
  | ok te =>
    simp only [hr] at h
    have ht : t = tText te := by
      cases te with
      | plain s => simp only [selectText, Except.ok.injEq] at h; exact h.symm
      | versioned s vs =>
        simp only [selectText] at h
        split at h
        · simp only [Except.ok.injEq] at h; exact h.symm
        · simp at h
    rw [ht]
    unfold rawText at hr
    cases h1 : dictGet enumToXmlMap m.cls with
    | none => simp [h1] at hr
    | some texts =>
      simp only [h1] at hr
      cases h2 : dictGet enumMembers m.cls with
      | none => simp [h2] at hr
      | some ms =>
        simp only [h2] at hr
        cases h3 : dictGet ms m.name with
        | none => simp [h3] at hr
        | some i =>
          simp only [h3] at hr
          cases h4 : texts[i]? with
          | none => simp [h4] at hr
          | some x =>
            simp only [h4, Except.ok.injEq] at hr
            subst hr
            exact hall _ (dictGet_mem _ _ _ h1) _ (List.mem_of_getElem? h4)

theorem plainAttr_text {s : String} (h : plainAttr s = true) : plainText s = true := by
  simp only [plainAttr, plainText, List.all_eq_true] at h ⊢
  exact fun c hc => attr_text (h c hc)

theorem plain_ofList {l : List Char} (h : ∀ c ∈ l, attrChar c = true) :
    plainText (String.ofList l) = true := by
  apply plainAttr_text
  simpa [plainAttr, List.all_eq_true] using h

/-- Whatever a value without markup is formatted to is without markup. -/
theorem fmt_plain {an : List String} {f : Fmt} {v : Val C} {s : String} (h : f.run v = .ok s)
    (hv : plainVal an v = true) : plainText s = true := by
  have hm : ∀ {r : Except PyErr (List Char)}, r.map String.ofList = .ok s →
      (∀ t, r = .ok t → ∀ c ∈ t, attrChar c = true) → plainText s = true := by
    intro r hr ht
    cases r with
    | error e => simp [Except.map] at hr
    | ok t =>
      simp only [Except.map, Except.ok.injEq] at hr
      subst hr
      exact plain_ofList (ht t rfl)
  cases f <;> cases v <;> simp only [Fmt.run, reduceCtorEq, Except.ok.injEq] at h
  · subst h; simpa [plainVal] using hv
  · subst h; split <;> decide
  · rename_i n
    cases n <;> simp only [Fmt.run, reduceCtorEq, Except.ok.injEq] at h
    subst h
    exact plain_ofList fun c hc => numChar_attr (numChar_intStr _ c hc)
  · subst h; simpa [plainVal] using hv
  · exact plainAttr_text (enum_attr h)
  · subst h; split <;> decide
  · rename_i n
    cases n <;> simp only [Fmt.run] at h
    · refine hm h ?_
      intro t ht
      unfold formatFloatInt at ht
      split at ht
      · simp at ht
      · simp only [Except.ok.injEq] at ht
        subst ht
        exact fun c hc => numChar_attr (numChar_intStr _ c hc)
    · exact hm h fun t ht => formatFloat_attr ht
  · subst h; split <;> decide
  · exact hm h fun t ht => formatNumber_attr ht
  · exact hm h fun t ht => numericalValue_attr ht

/-! ### Safe elements -/

theorem safeText_of {s : String} (h : plainText s = true) : SafeText s := by
  simp only [plainText, List.all_eq_true] at h
  constructor
  · intro c hc
    have := h c hc
    simp only [textChar, Bool.and_eq_true, decide_eq_true_eq] at this
    exact ⟨this.1.1.1.1, this.1.1.1.2, this.1.2, this.2⟩
  · rintro ⟨a, b, hab⟩
    have := h '>' (by rw [← hab]; simp)
    simp [textChar] at this

theorem safeAttr_of {s : String} (h : plainAttr s = true) : SafeAttr s := by
  simp only [plainAttr, List.all_eq_true] at h
  intro c hc
  have := h c hc
  simp only [attrChar, textChar, Bool.and_eq_true, decide_eq_true_eq] at this
  obtain ⟨⟨⟨⟨⟨⟨⟨h1, h2⟩, h3⟩, h4⟩, h5⟩, h6⟩, h7⟩, h8⟩ := this
  exact ⟨h1, h2, h4, h6, h7, h8, h5⟩

/-- Everything below is without markup, and what is written of it is safe. -/
def DenSafe (an : List String) (d : WDen C W) : Prop :=
  plainVal an d.val = true ∧
    ∀ m arg xs, argSafe arg = true → d.write m arg = .ok xs → ∀ x ∈ xs, Safe x

/-- The same for an attribute. -/
def DenSafeF (an : List String) (d : WDen C W) : Prop :=
  DenSafe an d ∧ ∀ e ∈ d.elems, DenSafe an e

theorem collect_mem {α β : Type} {l : List β} {f : β → Except PyErr (List α)} {xs : List α}
    (h : collect (l.map f) = .ok xs) : ∀ x ∈ xs, ∃ i ∈ l, ∃ ys, f i = .ok ys ∧ x ∈ ys := by
  induction l generalizing xs with
  | nil => simp [collect] at h; subst h; simp
  | cons i l ih =>
    simp only [List.map_cons] at h
    cases hf : f i with
    | error e => simp [hf, collect] at h
    | ok ys =>
      simp only [hf, collect] at h
      cases hc : collect (l.map f) with
      | error e => simp [hc] at h
      | ok zs =>
        simp only [hc, Except.ok.injEq] at h
        subst h
        intro x hx
        simp only [List.mem_append] at hx
        rcases hx with hx | hx
        · exact ⟨i, by simp, ys, hf, hx⟩
        · obtain ⟨j, hj, us, h1, h2⟩ := ih hc x hx
          exact ⟨j, by simp [hj], us, h1, h2⟩

theorem pick_mem {α : Type} {T : Tables C W R} {v : Val C} {alts : List (Test C × α)} {a : α}
    (h : pick T v alts = some a) : ∃ t, (t, a) ∈ alts := by
  induction alts with
  | nil => simp [pick] at h
  | cons p alts ih =>
    obtain ⟨t, b⟩ := p
    simp only [pick] at h
    split at h
    · simp only [Option.some.injEq] at h
      subst h
      exact ⟨t, by simp⟩
    · obtain ⟨t', ht'⟩ := ih h
      exact ⟨t', by simp [ht']⟩

theorem call_safe {an : List String} {T : Tables C W R} {alts : List (Test C × WAtom W)}
    {miss : Option PyErr} {d : WDen C W} {xs : List Xml} (hd : DenSafe an d)
    (ha : (alts.all fun a => atomSafe a.2) = true) (h : writeCall T alts miss d = .ok xs) :
    ∀ x ∈ xs, Safe x := by
  unfold writeCall at h
  cases hp : pick T d.val alts with
  | none =>
    cases miss <;> simp [hp] at h
    subst h; simp
  | some a =>
    simp only [hp] at h
    obtain ⟨t, ht⟩ := pick_mem hp
    simp only [List.all_eq_true] at ha
    have ha := ha _ ht
    cases a with
    | meth m arg => exact hd.2 m arg xs ha h
    | text tag f =>
      simp only [writeAtom] at h
      cases hf : f.run d.val with
      | error e => simp [hf] at h
      | ok s =>
        simp only [hf, Except.ok.injEq] at h
        subst h
        simp only [List.mem_singleton, forall_eq, Safe, SafeAttrs]
        exact ⟨nameOk_iff.1 ha, by simp, safeText_of (fmt_plain hf hd.1)⟩
    | limit tag =>
      simp only [writeAtom] at h
      unfold writeLimit at h
      split at h
      · rename_i n m hval
        split at h
        · rename_i i t h1 h2
          simp only [Except.ok.injEq] at h
          subst h
          simp only [List.mem_singleton, forall_eq, Safe, SafeAttrs]
          refine ⟨nameOk_iff.1 ha, ⟨?_, by simp⟩, safeText_of (plain_ofList (formatNumber_attr h2))⟩
          refine ⟨nameOk_iff.1 (by decide), safeAttr_of (enum_attr h1)⟩
        · simp at h
        · simp at h
      · simp at h

theorem safeAll_iff (xs : List Xml) : SafeAll xs ↔ ∀ x ∈ xs, Safe x := by
  induction xs with
  | nil => simp [SafeAll]
  | cons x xs ih => simp [SafeAll, ih]

theorem wrapped_safe {wrap : Option String} {r : Except PyErr (List Xml)} {xs : List Xml}
    (hw : argSafe wrap = true) (hr : ∀ ys, r = .ok ys → ∀ y ∈ ys, Safe y)
    (h : wrapped wrap r = .ok xs) : ∀ x ∈ xs, Safe x := by
  unfold wrapped at h
  split at h
  · rename_i t ks
    simp only [Except.ok.injEq] at h
    subst h
    simp only [List.mem_singleton, forall_eq, Safe, SafeAttrs]
    exact ⟨nameOk_iff.1 hw, by simp, (safeAll_iff ks).2 (hr ks rfl)⟩
  · exact hr xs h

theorem item_safe {an : List String} {T : Tables C W R} {ds : List (String × WDen C W)}
    {wi : WItem C W} {xs : List Xml} (hd : ∀ p ∈ ds, DenSafeF an p.2) (hi : itemSafe wi = true)
    (h : writeItem T ds wi = .ok xs) : ∀ x ∈ xs, Safe x := by
  cases wi with
  | one g f wrap alts miss =>
    simp only [itemSafe, Bool.and_eq_true] at hi
    simp only [writeItem] at h
    cases hg : dictGet ds f with
    | none =>
      simp only [hg] at h
      split at h
      · simp at h
      · simp only [Except.ok.injEq] at h; subst h; simp
    | some d =>
      have hd' := hd _ (dictGet_mem _ _ _ hg)
      simp only [hg] at h
      split at h
      · exact wrapped_safe hi.1 (fun ys hy => call_safe hd'.1 hi.2 hy) h
      · simp only [Except.ok.injEq] at h; subst h; simp
  | many g f wrap alts miss =>
    simp only [itemSafe, Bool.and_eq_true] at hi
    simp only [writeItem] at h
    cases hg : dictGet ds f with
    | none =>
      simp only [hg] at h
      split at h
      · exact wrapped_safe hi.1 (by simp) h
      · simp only [Except.ok.injEq] at h; subst h; simp
    | some d =>
      have hd' := hd _ (dictGet_mem _ _ _ hg)
      simp only [hg] at h
      split at h
      · split at h
        · refine wrapped_safe hi.1 ?_ h
          intro ys hy y hym
          obtain ⟨e, he, zs, h1, h2⟩ := collect_mem hy y hym
          exact call_safe (hd'.2 e he) hi.2 h1 y h2
        · simp at h
      · simp only [Except.ok.injEq] at h; subst h; simp
  | each f wrap alts miss =>
    simp only [itemSafe, Bool.and_eq_true] at hi
    simp only [writeItem] at h
    cases hg : dictGet ds f with
    | none => simp only [hg, Except.ok.injEq] at h; subst h; simp
    | some d =>
      have hd' := hd _ (dictGet_mem _ _ _ hg)
      simp only [hg] at h
      split at h
      · intro x hx
        obtain ⟨e, he, zs, h1, h2⟩ := collect_mem h x hx
        exact wrapped_safe (wrap := some wrap) hi.1
          (fun ys hy => call_safe (hd'.2 e he) hi.2 hy) h1 x h2
      · simp at h

theorem collect_names {A : List WAttr} {ds : List (String × WDen C W)} {as : List (String × String)}
    (h : collect (A.map (writeAttr ds)) = .ok as) :
    (as.map Prod.fst).Sublist (A.map (·.name)) := by
  induction A generalizing as with
  | nil => simp [collect] at h; subst h; simp
  | cons a A ih =>
    simp only [List.map_cons] at h
    cases hf : writeAttr ds a with
    | error e => simp [hf, collect] at h
    | ok l =>
      simp only [hf, collect] at h
      cases hc : collect (A.map (writeAttr ds)) with
      | error e => simp [hc] at h
      | ok l' =>
        simp only [hc, Except.ok.injEq] at h
        subst h
        have := ih hc
        unfold writeAttr at hf
        split at hf
        · split at hf
          · simp at hf
          · simp only [Except.ok.injEq] at hf
            subst hf
            simpa using this.cons _
        · split at hf
          · simp only [Except.ok.injEq] at hf
            subst hf
            simpa using this
          · simp at hf

theorem attrs_safe {an : List String} {A : List WAttr} {ds : List (String × WDen C W)}
    {as : List (String × String)} (hA : attrsSafe an A = true)
    (hd : ∀ k d, dictGet ds k = some d → k ∈ an → ∀ s, d.val = .str s → plainAttr s = true)
    (h : collect (A.map (writeAttr ds)) = .ok as) : SafeAttrs as := by
  simp only [attrsSafe, Bool.and_eq_true, List.all_eq_true, decide_eq_true_eq] at hA
  refine ⟨?_, (collect_names h).nodup hA.2⟩
  intro e he
  obtain ⟨wa, hwa, l, h1, h2⟩ := collect_mem h e he
  have ha := hA.1 wa hwa
  simp only [attrSafe, Bool.and_eq_true, Bool.or_eq_true, decide_eq_true_eq] at ha
  unfold writeAttr at h1
  split at h1
  · split at h1
    · simp at h1
    · simp only [Except.ok.injEq] at h1; subst h1; simp at h2
  · rename_i d hg
    split at h1
    · rename_i s hs
      simp only [Except.ok.injEq] at h1
      subst h1
      simp only [List.mem_singleton] at h2
      subst h2
      refine ⟨nameOk_iff.1 ha.1, ?_⟩
      cases hen : wa.enum with
      | true =>
        simp only [hen, if_true] at hs
        cases hv : d.val <;> simp [hv, Fmt.run] at hs
        exact safeAttr_of (enum_attr hs)
      | false =>
        simp only [hen, Bool.false_eq_true, if_false, false_or] at hs ha
        cases hv : d.val <;> simp [hv, Fmt.run] at hs
        subst hs
        exact safeAttr_of (hd _ d hg ha.2 _ hv)
    · simp at h1

/-- Every text among the pieces is without markup, and every inline element safe. -/
def PartPlain : Part → Prop
  | .text s => plainText s = true
  | .elem t as s => Safe (.leaf t as s)

theorem merge_plain (ps : List Part) (h : ∀ p ∈ ps, PartPlain p) :
    ∀ p ∈ mergeParts ps, PartPlain p := by
  induction ps with
  | nil => simp [mergeParts]
  | cons p ps ih =>
    have ih := ih (fun q hq => h q (by simp [hq]))
    have hp := h p (by simp)
    cases p with
    | elem t as s =>
      simp only [mergeParts, List.mem_cons]
      rintro q (rfl | hq)
      · exact hp
      · exact ih q hq
    | text s =>
      simp only [mergeParts]
      split
      · exact ih
      · split
        · rename_i t qs hm
          rw [hm] at ih
          have ht : plainText t = true := ih (.text t) (by simp)
          simp only [List.mem_cons]
          rintro q (rfl | hq)
          · simp only [PartPlain, plainText, List.all_eq_true] at hp ht ⊢
            intro c hc
            rw [String.toList_append] at hc
            simp only [List.mem_append] at hc
            rcases hc with hc | hc
            · exact hp c hc
            · exact ht c hc
          · exact ih q (by simp [hq])
        · simp only [List.mem_cons]
          rintro q (rfl | hq)
          · exact hp
          · exact ih q hq

theorem tag_name {fixed arg : Option String} {tag : String} (h : tagOf fixed arg = some tag)
    (hf : argSafe fixed = true) (ha : argSafe arg = true) : Name tag := by
  cases fixed with
  | some t => simp only [tagOf, Option.some.injEq] at h; subst h; exact nameOk_iff.1 hf
  | none => simp only [tagOf] at h; subst h; exact nameOk_iff.1 ha

theorem guard_ok {α : Type} {b : Bool} {e : PyErr} {r : Except PyErr α} {x : α}
    (h : (if b = false then .error e else r) = .ok x) : r = .ok x := by
  split at h
  · simp at h
  · exact h

theorem writer_safe {an : List String} (T : Tables C W R)
    (hT : ∀ m arg, argSafe arg = true → methSafe an (T.wm m arg) = true) {v : Val C}
    {ds : List (String × WDen C W)} (hv : plainVal an v = true)
    (hd : ∀ p ∈ ds, DenSafeF an p.2)
    (hs : ∀ k d, dictGet ds k = some d → k ∈ an → ∀ s, d.val = .str s → plainAttr s = true)
    {m : W} {arg : Option String} (ha : argSafe arg = true) {xs : List Xml}
    (h : runWriter T m arg v ds = .ok xs) : ∀ x ∈ xs, Safe x := by
  have hm := hT m arg ha
  unfold runWriter at h
  cases hw : T.wm m arg with
  | bad e => simp [hw] at h
  | node acc fixed A empty I =>
    simp only [hw] at h hm
    simp only [methSafe, Bool.and_eq_true, List.all_eq_true] at hm
    replace h := guard_ok h
    · split at h
      · simp at h
      · rename_i tag htag
        have hn := tag_name htag hm.1.1 ha
        split at h
        · simp at h
        · rename_i as has
          split at h
          · simp only [Except.ok.injEq] at h
            subst h
            simp only [List.mem_singleton, forall_eq, Safe, SafeAttrs]
            exact ⟨hn, by simp, safeText_of (by decide)⟩
          · split at h
            · simp at h
            · rename_i ks hks
              simp only [Except.ok.injEq] at h
              subst h
              simp only [List.mem_singleton, forall_eq, Safe]
              refine ⟨hn, attrs_safe hm.1.2 hs has, (safeAll_iff ks).2 ?_⟩
              intro x hx
              obtain ⟨wi, hwi, ys, h1, h2⟩ := collect_mem hks x hx
              exact item_safe hd (hm.2 wi hwi) h1 x h2
  | ref acc fixed =>
    simp only [hw] at h hm
    simp only [methSafe] at hm
    split at h
    · rename_i r
      replace h := guard_ok h
      · split at h
        · simp at h
        · rename_i tag htag
          split at h
          · rename_i t ht
            simp only [Except.ok.injEq] at h
            subst h
            simp only [List.mem_singleton, forall_eq, Safe, SafeAttrs]
            refine ⟨tag_name htag hm ha, ⟨?_, by simp⟩, safeText_of (by simpa [plainVal] using hv)⟩
            exact ⟨nameOk_iff.1 (by decide), safeAttr_of (enum_attr ht)⟩
          · simp at h
    · simp at h
  | leaf acc tag A field miss =>
    simp only [hw] at h hm
    simp only [methSafe, Bool.and_eq_true] at hm
    split at h
    · simp at h
    · split at h
      · simp at h
      · rename_i as has
        split at h
        · simp only [Except.ok.injEq] at h
          subst h
          simp only [List.mem_singleton, forall_eq, Safe]
          exact ⟨nameOk_iff.1 hm.1, attrs_safe hm.2 hs has, safeText_of (by decide)⟩
        · split at h
          · simp at h
          · rename_i d hg
            split at h
            · rename_i s hf
              simp only [Except.ok.injEq] at h
              subst h
              simp only [List.mem_singleton, forall_eq, Safe]
              exact ⟨nameOk_iff.1 hm.1, attrs_safe hm.2 hs has,
                safeText_of (fmt_plain hf (hd _ (dictGet_mem _ _ _ hg)).1.1)⟩
            · simp at h
  | mixed acc fixed A field alts =>
    simp only [hw] at h hm
    simp only [methSafe, Bool.and_eq_true] at hm
    split at h
    · simp at h
    · split at h
      · simp at h
      · rename_i tag htag
        have hn := tag_name htag hm.1.1 ha
        split at h
        · simp at h
        · rename_i as has
          have hsa := attrs_safe hm.1.2 hs has
          have hmix : ∀ ps : List Part, (∀ p ∈ ps, PartPlain p) → Safe (.mixed tag as ps) := by
            intro ps hps
            refine ⟨hn, hsa, ?_⟩
            intro p hp
            have := merge_plain ps hps p hp
            cases p with
            | text s => exact safeText_of this
            | elem t as s => exact this
          split at h
          · simp only [Except.ok.injEq] at h
            subst h
            simp only [List.mem_singleton, forall_eq]
            exact hmix [] (by simp)
          · rename_i d hg
            split at h
            · simp at h
            · rename_i ps hps
              simp only [Except.ok.injEq] at h
              subst h
              simp only [List.mem_singleton, forall_eq]
              apply hmix
              intro q hq
              obtain ⟨e, he, zs, h1, h2⟩ := collect_mem hps q hq
              have hde := (hd _ (dictGet_mem _ _ _ hg)).2 e he
              unfold writePart at h1
              split at h1
              · rename_i s hval
                simp only [Except.ok.injEq] at h1
                subst h1
                simp only [List.mem_singleton] at h2
                subst h2
                have := hde.1
                rw [hval] at this
                simpa [PartPlain, plainVal] using this
              · split at h1
                · rename_i t as' s hc
                  simp only [Except.ok.injEq] at h1
                  subst h1
                  simp only [List.mem_singleton] at h2
                  subst h2
                  exact call_safe hde hm.2 hc _ (by simp)
                · simp at h1
                · simp at h1

theorem plainFields_mem {an : List String} {fs : List (String × Val C)}
    (h : plainFields an fs = true) : ∀ p ∈ fs, plainVal an p.2 = true ∧
      (p.1 ∈ an → ∀ s, p.2 = .str s → plainAttr s = true) := by
  induction fs with
  | nil => simp
  | cons q fs ih =>
    obtain ⟨k, v⟩ := q
    simp only [plainFields, Bool.and_eq_true, Bool.or_eq_true, decide_eq_true_eq] at h
    simp only [List.mem_cons]
    rintro p (rfl | hp)
    · refine ⟨h.1.1, ?_⟩
      rintro hk s rfl
      rcases h.1.2 with h' | h'
      · exact absurd hk h'
      · exact h'
    · exact ih h.2 p hp

theorem plainList_mem {an : List String} {vs : List (Val C)}
    (h : plainList an vs = true) : ∀ v ∈ vs, plainVal an v = true := by
  induction vs with
  | nil => simp
  | cons q vs ih =>
    simp only [plainList, Bool.and_eq_true] at h
    simp only [List.mem_cons]
    rintro p (rfl | hp)
    · exact h.1
    · exact ih h.2 p hp

theorem wdenFields_mem {T : Tables C W R} {fs : List (String × Val C)} :
    ∀ p ∈ wdenFields T fs, ∃ v, (p.1, v) ∈ fs ∧ p.2 = wden T v := by
  induction fs with
  | nil => simp [wdenFields]
  | cons q fs ih =>
    obtain ⟨k, v⟩ := q
    simp only [wdenFields, List.mem_cons]
    rintro p (rfl | hp)
    · exact ⟨v, by simp, rfl⟩
    · obtain ⟨u, h1, h2⟩ := ih p hp
      exact ⟨u, Or.inr h1, h2⟩

theorem wden_elems_notList {T : Tables C W R} {v : Val C} (h : ∀ vs, v ≠ .list vs) :
    (wden T v).elems = [] := by
  cases v <;> simp [wden, WDen.elems] at h ⊢

/-- Objects without markup are written as safe elements. -/
theorem all_safe {an : List String} (T : Tables C W R)
    (hT : ∀ m arg, argSafe arg = true → methSafe an (T.wm m arg) = true) :
    ∀ v : Val C, plainVal an v = true → DenSafe an (wden T v) := by
  have key : ∀ n : Nat, ∀ v : Val C, sizeOf v < n → plainVal an v = true →
      DenSafe an (wden T v) := by
    intro n
    induction n with
    | zero => intro v hv; omega
    | succ n ih =>
      intro v hv hp
      refine ⟨by rw [wden_val]; exact hp, ?_⟩
      intro m arg xs ha h
      cases v with
      | obj c fs =>
        rw [wden_write_obj] at h
        have hpf := plainFields_mem (by simpa [plainVal] using hp)
        refine writer_safe T hT hp ?_ ?_ ha h
        · intro p hpm
          obtain ⟨u, hu, he⟩ := wdenFields_mem p hpm
          rw [he]
          have hlt : sizeOf u < sizeOf fs := by
            have h1 := List.sizeOf_lt_of_mem hu
            simp at h1
            omega
          have hn : sizeOf fs < n := by simp at hv; omega
          refine ⟨ih u (by omega) (hpf _ hu).1, ?_⟩
          intro e he
          cases u with
          | list vs =>
            rw [wden_elems] at he
            simp only [List.mem_map] at he
            obtain ⟨w, hw, rfl⟩ := he
            have h2 := List.sizeOf_lt_of_mem hw
            simp at hlt
            exact ih w (by omega) (plainList_mem (by simpa [plainVal] using (hpf _ hu).1) w hw)
          | _ => rw [wden_elems_notList (by simp)] at he; simp at he
        · intro k d hg hk s hs
          rw [wdenFields_get] at hg
          cases hd : dictGet fs k with
          | none => simp [hd] at hg
          | some u =>
            simp only [hd, Option.map_some, Option.some.injEq] at hg
            subst hg
            rw [wden_val] at hs
            exact (hpf _ (dictGet_mem _ _ _ hd)).2 hk s hs
      | _ =>
        simp only [wden, WDen.write] at h
        exact writer_safe T hT hp (by simp) (by simp [dictGet]) ha h
  intro v
  exact key (sizeOf v + 1) v (by omega)

/-! ### From object to text and back -/

/-- The text the writer produces for one element (`write_str_elem`, writer.py 417-432). -/
def textOf (T : Tables C W R) (m : W) (arg : Option String) (v : Val C) : Except PyErr (List Char) :=
  match writeWith T m arg v with
  | .ok [x] => writeElem x
  | .ok _ => .error .notImplemented
  | .error e => .error e

/-- Parse the text and read the element (`read_str_elem`, reader.py 380-394). -/
def valueOf (T : Tables C W R) (m : R) (text : List Char) : Except PyErr (Val C) :=
  match parseElement text with
  | none => .error .parseError
  | some d => readWith T m d

/-- Objects of the right type without markup survive. -/
theorem text_rt {an : List String} (T : Tables C W R) (P : List (Pair C W R))
    (hP : allOk T P = true)
    (hT : ∀ m arg, argSafe arg = true → methSafe an (T.wm m arg) = true)
    {p : Pair C W R} (hp : p ∈ P) (ha : argSafe p.arg = true) {v : Val C}
    (hv : hasS T v (.cls p.c) = true) (hs : plainVal an v = true) :
    ∃ text, textOf T p.w p.arg v = .ok text ∧ valueOf T p.r text = .ok (normVal T false v) := by
  obtain ⟨x, tag, h1, h2, h3, -, h4⟩ := all_good T P hP v p hp hv
  have hx : Safe x := (all_safe T hT v hs).2 p.w p.arg [x] ha h2 x (by simp)
  refine ⟨render 0 x, ?_, ?_⟩
  · unfold textOf writeWith
    rw [h2]
    simp only
    rw [Verif.Props.Xml.C17_lines, joinLines_render]
  · have := parse_render x hx [] (by simp)
    simp only [List.nil_append] at this
    unfold valueOf readWith
    rw [this]
    obtain ⟨k, hk⟩ := rden_some T none 0 x
    simp only [hk]
    exact h4 0 none k hk

end Verif.Codec
