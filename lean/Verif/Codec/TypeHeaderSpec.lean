import Verif.Codec.FindSpec
import Verif.Impl.HeaderSpec
/-
The C types that the types in a document stand for (C66).
-/
namespace Verif.Codec.TypeHeaderSpec
open Verif.Impl.Spec Verif.Codec Verif.Codec.Find Verif.Codec.FindSpec

/-- The attribute of an object. -/
def field : Val Cls → String → Option (Val Cls)
  | .obj _ fs, a => fs.lookup a
  | _, _ => none

/-- A base type. -/
def IsBase (v : Val Cls) : Prop := ∃ fs, v = .obj .SwBaseType fs

/-- An implementation data type. -/
def IsImpl (v : Val Cls) : Prop := ∃ fs, v = .obj .ImplementationDataType fs

/-- A text attribute. -/
def Says (v : Val Cls) (a s : String) : Prop := field v a = some (.str s)

/-- The reference in the (first variant of the) properties of a type or an element of a type. -/
def RefersTo (v : Val Cls) (a r : String) : Prop :=
  ∃ props w ws x, field v "sw_data_def_props" = some (.obj .SwDataDefProps props) ∧
    props.lookup "variants" = some (.list (w :: ws)) ∧ field w a = some (.ref x) ∧ x.value = r

/-- The elements of an array or structure. -/
def Parts (v : Val Cls) (l : List (Val Cls)) : Prop :=
  field v "sub_elements" = some (.list l) ∨ ((∀ m, field v "sub_elements" ≠ some (.list m)) ∧ l = [])

/-- Declared by others: base types without native declaration, and types whose emitter is not the
RTE. -/
def Foreign (v : Val Cls) : Prop :=
  (IsBase v ∧ ∀ s, Says v "native_declaration" s → s = "") ∨
  (IsImpl v ∧ ∃ e, Says v "type_emitter" e ∧ ¬ SpellsRte e)

/-- The reference leads to the element. -/
def LeadsTo (ps : List Pkg) (r : String) (v : Val Cls) : Prop := find ps r = .ok (some (.obj v))

mutual
/-- The C type a base type or implementation data type stands for. -/
inductive DocType (ps : List Pkg) : Val Cls → Ty → Prop
  | foreign {v n} : Foreign v → Says v "name" n → DocType ps v (.outside n)
  | base {v native} : IsBase v → Says v "native_declaration" native → native ≠ "" →
      DocType ps v (.outside native)
  | value {v r y t} : IsImpl v → ¬ Foreign v → Says v "category" "VALUE" →
      RefersTo v "base_type_ref" r → LeadsTo ps r y → DocType ps y t → DocType ps v t
  | typeRef {v r y t} : IsImpl v → ¬ Foreign v → Says v "category" "TYPE_REFERENCE" →
      RefersTo v "impl_data_type_ref" r → LeadsTo ps r y → DocType ps y t → DocType ps v t
  | array {v s t} {size : Nat} : IsImpl v → ¬ Foreign v → Says v "category" "ARRAY" → Parts v [s] →
      field s "array_size" = some (.num (.int size)) → DocPart ps s t → DocType ps v (.array size t)
  | struct {v n l ts} : IsImpl v → ¬ Foreign v → Says v "category" "STRUCTURE" → Says v "name" n →
      Parts v l → DocParts ps l ts → DocType ps v (.struct ("Rte_struct_" ++ n) ts)
/-- That of an element of an array or structure. -/
inductive DocPart (ps : List Pkg) : Val Cls → Ty → Prop
  | value {s r y t} : Says s "category" "VALUE" → RefersTo s "base_type_ref" r → LeadsTo ps r y →
      DocType ps y t → DocPart ps s t
  | typeRef {s r y t} : Says s "category" "TYPE_REFERENCE" → RefersTo s "impl_data_type_ref" r →
      LeadsTo ps r y → DocType ps y t → DocPart ps s t
/-- The members of a structure, in order. -/
inductive DocParts (ps : List Pkg) : List (Val Cls) → List (String × Ty) → Prop
  | nil : DocParts ps [] []
  | cons {s ss n t ts} : Says s "name" n → DocPart ps s t → DocParts ps ss ts →
      DocParts ps (s :: ss) ((n, t) :: ts)
end

/-- What C asks of the types in the packages: arrays and structures are not empty, members have
different names; the texts of native declarations and the names of types declared by others are types,
and the names of other types are not; no two of these have the same name.  And type references have no
other emitter (those are declared nevertheless, see `C56_emitter_counterexample`). -/
structure DocFit (ps : List Pkg) (outside : String → Bool) : Prop where
  arrays : ∀ {way v s}, ElementAt ps way v → IsImpl v → Says v "category" "ARRAY" → Parts v [s] →
    ∀ i, field s "array_size" = some (.num (.int i)) → 0 < i
  structs : ∀ {way v l}, ElementAt ps way v → IsImpl v → Says v "category" "STRUCTURE" → Parts v l →
    l ≠ [] ∧ l.Pairwise fun s s' => ∀ n, ¬ (Says s "name" n ∧ Says s' "name" n)
  native : ∀ {way v s}, ElementAt ps way v → IsBase v → Says v "native_declaration" s → s ≠ "" →
    outside s = true
  foreign : ∀ {way v n}, ElementAt ps way v → Foreign v → Says v "name" n → outside n = true
  own : ∀ {way v n}, ElementAt ps way v → IsBase v ∨ IsImpl v → ¬ Foreign v → Says v "name" n →
    outside n = false
  different : ∀ {way v way' v' n}, ElementAt ps way v → ElementAt ps way' v' →
    IsBase v ∨ IsImpl v → IsBase v' ∨ IsImpl v' → ¬ Foreign v → ¬ Foreign v' → Says v "name" n →
    Says v' "name" n → way = way'
  refs : ∀ {way v}, ElementAt ps way v → IsImpl v → Says v "category" "TYPE_REFERENCE" → ¬ Foreign v

end Verif.Codec.TypeHeaderSpec
