import Verif.Value.Lemmas
import Verif.Codec.ConstantSpec
import Verif.Codec.Roundtrip
/-
Lemmas for C64.
-/
namespace Verif.Codec.Constant
open Verif.Py Verif.Num Verif.Value Verif.Value.Spec Verif.Codec.Spec Verif.Codec.ConstantSpec

/-- Well formed as one of the value specifications, and what is read back holds the data. -/
def Fine (o : Val Cls) (P : Val Cls → Prop) : Prop :=
  Schema.valueSpecs.any (hasS tables o) = true ∧ plainVal xmlAttrs o = true ∧
    ∀ b, P (normVal tables b o)

theorem label_eq (l : Option String) : ConstantSpec.label l = labelled l := by cases l <;> rfl

theorem goodText_iff {s : String} : goodText s = true ↔ s ≠ "" ∧ plainText s = true := by
  simp [goodText]

def goodLabel : Option String → Bool
  | none => true
  | some l => goodText l

theorem norm_numerical (b : Bool) (l : Option String) (n : PyNum) :
    normVal tables b (.obj .NumericalValueSpecification (labelled l ++ [("value", .num n)])) =
      .obj .NumericalValueSpecification (labelled l ++ [("value", .num (canonNum n))]) := by
  cases l <;> rfl

theorem norm_text (b : Bool) (l : Option String) (s : String) :
    normVal tables b (.obj .TextValueSpecification (labelled l ++ [("value", .str s)])) =
      .obj .TextValueSpecification (labelled l ++ [("value", .str s)]) := by
  cases l <;> rfl

theorem norm_absent (b : Bool) (l : Option String) :
    normVal tables b (.obj .NotAvailableValueSpecification (labelled l)) =
      .obj .NotAvailableValueSpecification (labelled l) := by
  cases l <;> rfl

theorem norm_pattern (b : Bool) (l : Option String) (i : Int) :
    normVal tables b (.obj .NotAvailableValueSpecification
      (labelled l ++ [("default_pattern", .num (.int i))])) =
      .obj .NotAvailableValueSpecification (labelled l ++ [("default_pattern", .num (.int i))]) := by
  cases l <;> rfl

theorem norm_array (b : Bool) (l : Option String) (vs : List (Val Cls)) :
    normVal tables b (.obj .ArrayValueSpecification (labelled l ++ [("elements", .list vs)])) =
      .obj .ArrayValueSpecification (labelled l ++ [("elements", .list (normList tables false vs))]) := by
  cases l <;> rfl

theorem norm_record (b : Bool) (l : Option String) (vs : List (Val Cls)) :
    normVal tables b (.obj .RecordValueSpecification (labelled l ++ [("fields", .list vs)])) =
      .obj .RecordValueSpecification (labelled l ++ [("fields", .list (normList tables false vs))]) := by
  cases l <;> rfl

theorem fields_ok {c : Cls} {k : String} {f : Field Cls} {v : Val Cls}
    {rest : List (String × Val Cls)} (hf : fieldOf (tables.schema c) k = some f)
    (hv : hasField tables f v = true) (hr : hasFields tables (tables.schema c) rest = true) :
    hasFields tables (tables.schema c) ((k, v) :: rest) = true := by
  rw [hasFields_cons, hf, hr, Bool.and_true]
  exact hv

theorem has_str {s : String} (h : s ≠ "") : hasField tables (Schema.opt "label" [.str]) (.str s) = true := by
  simp [hasField, Schema.opt, hasS, h]

/-- With its label, an object of one of the classes that have one. -/
theorem with_label {c : Cls} (l : Option String) (hl : goodLabel l = true)
    (hf : fieldOf (tables.schema c) "label" = some (Schema.opt "label" [.str]))
    {rest : List (String × Val Cls)} (hr : hasFields tables (tables.schema c) rest = true) :
    hasFields tables (tables.schema c) (labelled l ++ rest) = true := by
  cases l with
  | none => exact hr
  | some s => exact fields_ok hf (has_str (goodText_iff.1 hl).1) hr

theorem plain_label (l : Option String) (hl : goodLabel l = true)
    {rest : List (String × Val Cls)} (hr : plainFields xmlAttrs rest = true) :
    plainFields xmlAttrs (labelled l ++ rest) = true := by
  cases l with
  | none => exact hr
  | some s =>
    have h := (goodText_iff.1 hl).2
    show plainFields xmlAttrs (("label", .str s) :: rest) = true
    rw [plainFields, hr]
    simp [plainVal, h, xmlAttrs]

theorem has_obj {c : Cls} {fs : List (String × Val Cls)}
    (ho : orderOk (tables.schema c) (fs.map (·.1)) = true)
    (hf : hasFields tables (tables.schema c) fs = true) (hc : STy.cls c ∈ Schema.valueSpecs) :
    Schema.valueSpecs.any (hasS tables (.obj c fs)) = true := by
  refine List.any_eq_true.2 ⟨.cls c, hc, ?_⟩
  simp [hasS, ho, hf]

theorem fine_number (l : Option String) (hl : goodLabel l = true) (n : PyNum) (hn : numOk n = true)
    {p : PyData} :
    Fine (valueObj (.numerical l (some (.num n)))) (HoldsAs l (.num n) p) := by
  refine ⟨?_, ?_, fun b => ?_⟩
  · refine has_obj (by cases l <;> rfl) ?_ (by decide)
    refine with_label l hl (by rfl) (fields_ok (f := Schema.opt "value" [.int, .numFloat]) (by rfl) ?_ rfl)
    cases n <;> simp_all [hasField, Schema.opt, hasS, numOk]
  · exact plain_label l hl rfl
  · show HoldsAs l (.num n) p (normVal tables b
      (.obj .NumericalValueSpecification (labelled l ++ [("value", .num n)])))
    rw [norm_numerical, ← label_eq]
    exact .number (sameNum_canon n)

theorem fine_text (l : Option String) (hl : goodLabel l = true) (s : String) (hs : goodText s = true)
    {p : PyData} : Fine (valueObj (.text l (some s))) (HoldsAs l (.str s) p) := by
  obtain ⟨h1, h2⟩ := goodText_iff.1 hs
  refine ⟨?_, ?_, fun b => ?_⟩
  · refine has_obj (by cases l <;> rfl) ?_ (by decide)
    refine with_label l hl (by rfl) (fields_ok (f := Schema.opt "value" [.str]) (by rfl) ?_ rfl)
    simp [hasField, Schema.opt, hasS, h1]
  · exact plain_label l hl (by simp [plainFields, plainVal, h2, xmlAttrs])
  · show HoldsAs l (.str s) p (normVal tables b
      (.obj .TextValueSpecification (labelled l ++ [("value", .str s)])))
    rw [norm_text, ← label_eq]
    exact .text

theorem fine_absent (l : Option String) (hl : goodLabel l = true) (p : PyData)
    (hp : goodPattern p = true) : Fine (valueObj (.notAvailable l p)) (HoldsAs l .none p) := by
  cases p with
  | none =>
    refine ⟨?_, ?_, fun b => ?_⟩
    · refine has_obj (by cases l <;> rfl) ?_ (by decide)
      exact with_label l hl (by rfl) rfl
    · exact plain_label l hl rfl
    · show HoldsAs l .none .none (normVal tables b
        (.obj .NotAvailableValueSpecification (labelled l ++ [])))
      rw [List.append_nil, norm_absent, ← label_eq]
      exact .absent
  | num n =>
    cases n with
    | float f => cases hp
    | int i =>
      refine ⟨?_, ?_, fun b => ?_⟩
      · refine has_obj (by cases l <;> rfl) ?_ (by decide)
        refine with_label l hl (by rfl) (fields_ok (f := Schema.opt "default_pattern" [.nat]) (by rfl) ?_ rfl)
        simp [goodPattern] at hp
        simp [hasField, Schema.opt, hasS, hp]
      · exact plain_label l hl rfl
      · show HoldsAs l .none (.num (.int i)) (normVal tables b
          (.obj .NotAvailableValueSpecification (labelled l ++ [("default_pattern", .num (.int i))])))
        rw [norm_pattern, ← label_eq]
        exact .absentPattern
  | _ => cases hp

/-- All elements are well formed, and what is read back holds the data. -/
def FineAll (os : List (Val Cls)) (P : List (Val Cls) → Prop) : Prop :=
  hasList tables Schema.valueSpecs os = true ∧ plainList xmlAttrs os = true ∧
    ∀ b, P (normList tables b os)

theorem fine_array (l : Option String) (hl : goodLabel l = true) {m : String} (hm : ArrayMarker m)
    {ds : List PyData} {vs : List ValueSpec} (hd : ds = [] ↔ vs = []) {p : PyData}
    (h : FineAll (valueObjs vs) (HoldsAll ds)) :
    Fine (valueObj (.array l vs)) (HoldsAs l (.list (.str m :: ds)) p) := by
  cases vs with
  | nil =>
    obtain rfl := hd.2 rfl
    refine ⟨?_, ?_, fun b => ?_⟩
    · refine has_obj (by cases l <;> rfl) ?_ (by decide)
      exact with_label l hl (by rfl) rfl
    · exact plain_label l hl rfl
    · have : normVal tables b (valueObj (.array l [])) = .obj .ArrayValueSpecification (labelled l) := by
        cases l <;> rfl
      rw [this, ← label_eq]
      exact .emptyArray hm
  | cons v vs =>
    have hne : ds ≠ [] := fun h' => by simpa using hd.1 h'
    have he : valueObj (.array l (v :: vs)) =
        .obj .ArrayValueSpecification (labelled l ++ [("elements", .list (valueObjs (v :: vs)))]) := by
      simp [valueObj, items, valueObjs]
    rw [he]
    generalize hw : valueObjs (v :: vs) = ws at h
    have hws : ws.isEmpty = false := by rw [← hw]; rfl
    refine ⟨?_, ?_, fun b => ?_⟩
    · refine has_obj (by cases l <;> (simp only [List.map_append, List.map_cons, List.map_nil, labelled]; decide +kernel)) ?_ (by decide)
      refine with_label l hl (by rfl) (fields_ok (f := Schema.list "elements" Schema.valueSpecs) (by rfl) ?_ rfl)
      simp [hasField, Schema.list, hws, maxOk, h.1]
    · exact plain_label l hl (by simpa [plainFields, plainVal, xmlAttrs] using h.2.1)
    · rw [norm_array, ← label_eq]
      exact .array hm hne (h.2.2 false)

theorem fine_record (l : Option String) (hl : goodLabel l = true) {m : String} (hm : RecordMarker m)
    {ds : List PyData} {vs : List ValueSpec} (hd : ds = [] ↔ vs = []) {p : PyData}
    (h : FineAll (valueObjs vs) (HoldsAll ds)) :
    Fine (valueObj (.record l vs)) (HoldsAs l (.list (.str m :: ds)) p) := by
  cases vs with
  | nil =>
    obtain rfl := hd.2 rfl
    refine ⟨?_, ?_, fun b => ?_⟩
    · refine has_obj (by cases l <;> rfl) ?_ (by decide)
      exact with_label l hl (by rfl) rfl
    · exact plain_label l hl rfl
    · have : normVal tables b (valueObj (.record l [])) = .obj .RecordValueSpecification (labelled l) := by
        cases l <;> rfl
      rw [this, ← label_eq]
      exact .emptyRecord hm
  | cons v vs =>
    have hne : ds ≠ [] := fun h' => by simpa using hd.1 h'
    have he : valueObj (.record l (v :: vs)) =
        .obj .RecordValueSpecification (labelled l ++ [("fields", .list (valueObjs (v :: vs)))]) := by
      simp [valueObj, items, valueObjs]
    rw [he]
    generalize hw : valueObjs (v :: vs) = ws at h
    have hws : ws.isEmpty = false := by rw [← hw]; rfl
    refine ⟨?_, ?_, fun b => ?_⟩
    · refine has_obj (by cases l <;> (simp only [List.map_append, List.map_cons, List.map_nil, labelled]; decide +kernel)) ?_ (by decide)
      refine with_label l hl (by rfl) (fields_ok (f := Schema.list "fields" Schema.valueSpecs) (by rfl) ?_ rfl)
      simp [hasField, Schema.list, hws, maxOk, h.1]
    · exact plain_label l hl (by simpa [plainFields, plainVal, xmlAttrs] using h.2.1)
    · rw [norm_record, ← label_eq]
      exact .record hm hne (h.2.2 false)

theorem describesAll_nil {ds : List PyData} {vs : List ValueSpec} (h : DescribesAll ds vs) :
    ds = [] ↔ vs = [] := by
  cases h <;> simp

mutual
theorem fine_describes {d : PyData} {v : ValueSpec} : Describes d v → good d = true →
    Fine (valueObj v) (Holds d)
  | .plain hn hc, hg => by
    obtain ⟨h1, h2, h3⟩ := fine_content hc rfl hg rfl
    exact ⟨h1, h2, fun b => .plain hn (h3 b)⟩
  | .labelled hc, hg => by
    simp only [good, Bool.and_eq_true] at hg
    obtain ⟨h1, h2, h3⟩ := fine_content hc hg.1 hg.2 rfl
    exact ⟨h1, h2, fun b => .labelled (h3 b)⟩
  | .patterned hc, hg => by
    simp only [good, Bool.and_eq_true] at hg
    obtain ⟨h1, h2, h3⟩ := fine_content hc hg.1.1 hg.1.2 hg.2
    exact ⟨h1, h2, fun b => .patterned (h3 b)⟩
theorem fine_content {l : Option String} {d p : PyData} {v : ValueSpec} : Content l d p v →
    goodLabel l = true → good d = true → goodPattern p = true → Fine (valueObj v) (HoldsAs l d p)
  | .number, hl, hg, _ => fine_number l hl _ (by simpa [good] using hg)
  | .bool, _, hg, _ => by simp [good] at hg
  | .text, hl, hg, _ => fine_text l hl _ (by simpa [good] using hg)
  | .absent _, hl, _, hp => fine_absent l hl _ hp
  | .array hm h, hl, hg, _ =>
    fine_array l hl hm (describesAll_nil h) (fine_all h (by simpa [good] using hg))
  | .record hm h, hl, hg, _ =>
    fine_record l hl hm (describesAll_nil h) (fine_all h (by simpa [good] using hg))
theorem fine_all {ds : List PyData} {vs : List ValueSpec} : DescribesAll ds vs →
    goodAll ds = true → FineAll (valueObjs vs) (HoldsAll ds)
  | .nil, _ => ⟨rfl, rfl, fun _ => .nil⟩
  | .cons h t, hg => by
    simp only [goodAll, Bool.and_eq_true] at hg
    obtain ⟨h1, h2, h3⟩ := fine_describes h hg.1
    obtain ⟨t1, t2, t3⟩ := fine_all t hg.2
    refine ⟨?_, ?_, fun b => .cons (h3 b) (t3 b)⟩
    · rw [valueObjs, hasList, h1, t1]; rfl
    · rw [valueObjs, plainList, h2, t2]; rfl
end

/-- The constant is well formed, and what is read back holds the data. -/
theorem constant_fine (name : String) (hn : goodText name = true) {d : PyData} {v : ValueSpec}
    (hd : Describes d v) (hg : good d = true) :
    WellFormed .ConstantSpecification
      (.obj .ConstantSpecification [("name", .str name), ("value", valueObj v)]) ∧
    ∃ o, normVal tables false (.obj .ConstantSpecification [("name", .str name), ("value", valueObj v)]) =
      .obj .ConstantSpecification [("name", .str name), ("value", o)] ∧ Holds d o := by
  obtain ⟨h1, h2, h3⟩ := fine_describes hd hg
  obtain ⟨n1, n2⟩ := goodText_iff.1 hn
  generalize valueObj v = w at *
  refine ⟨⟨?_, ?_⟩, normVal tables false w, ?_, h3 false⟩
  · have ho : orderOk (tables.schema .ConstantSpecification) ["name", "value"] = true := by decide +kernel
    have hf : hasFields tables (tables.schema .ConstantSpecification)
        [("name", .str name), ("value", w)] = true := by
      refine fields_ok (f := Schema.req "name" [.str]) (by rfl) ?_
        (fields_ok (f := Schema.opt "value" Schema.valueSpecs) (by rfl) ?_ rfl)
      · simp [hasField, Schema.req, hasS, n1]
      · simpa [hasField, Schema.opt] using h1
    simp only [hasS, List.map_cons, List.map_nil, ho, hf]
    rfl
  · simpa [plainVal, plainFields, n2, xmlAttrs] using h2
  · rfl

end Verif.Codec.Constant
