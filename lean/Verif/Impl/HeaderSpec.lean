import Verif.Impl.Header
/-
What the C compiler makes of the header, and which C type an implementation data type stands for
(C56).
-/
namespace Verif.Impl.Spec
open Verif.Py Verif.Impl

/-- C types: a type given outside the header (`unsigned char`, or a type of Rte.h), arrays,
structures. -/
inductive Ty where
  | outside (text : String)
  | array (size : Nat) (t : Ty)
  | struct (tag : String) (members : List (String × Ty))

/-! ### The compiler -/

/-- The preprocessor: macros defined, for each open `#ifndef` whether its lines count, and the lines
that remain.  Each `#ifndef` needs its `#endif`. -/
def preprocess (defs : List String) : List Bool → List CLine → Option (List CLine)
  | [], [] => some []
  | _ :: _, [] => none
  | stack, .ifndef n :: ls => preprocess defs ((stack.all id && !defs.contains n) :: stack) ls
  | [], .endif :: _ => none
  | _ :: stack, .endif :: ls => preprocess defs stack ls
  | stack, .define n :: ls => preprocess (if stack.all id then n :: defs else defs) stack ls
  | stack, .blank :: ls => preprocess defs stack ls
  | stack, .blockComment _ :: ls => preprocess defs stack ls
  | stack, l :: ls =>
    if stack.all id then (preprocess defs stack ls).map (l :: ·) else preprocess defs stack ls

/-- What has been declared: type names and structure tags. -/
structure CEnv where
  names : List (String × Ty)
  tags : List (String × Ty)

/-- The type a text stands for: a declared one, or one given outside. -/
def resolve (outside : String → Bool) (c : CEnv) (text : String) : Option Ty :=
  match dictGet c.names text with
  | some t => some t
  | none => if outside text then some (.outside text) else none

/-- The members of a structure. -/
def resolveAll (outside : String → Bool) (c : CEnv) :
    List (String × String) → Option (List (String × Ty))
  | [] => some []
  | (n, text) :: ms =>
    match resolve outside c text, resolveAll outside c ms with
    | some t, some ts => some ((n, t) :: ts)
    | _, _ => none

/-- A type name may be declared once. -/
def declare (outside : String → Bool) (c : CEnv) (n : String) (t : Ty) : Option CEnv :=
  if outside n || (dictGet c.names n).isSome then none
  else some { c with names := c.names ++ [(n, t)] }

/-- One line: types must be known, names and tags new, arrays not empty, structures not empty and
without members of the same name.  Anything but a declaration or an `#include` is no C. -/
def compileLine (outside : String → Bool) (c : CEnv) : CLine → Option CEnv
  | .typedef n text =>
    match resolve outside c text with
    | some t => declare outside c n t
    | none => none
  | .typedefArray n text size =>
    if size = 0 then none
    else
      match resolve outside c text with
      | some t => declare outside c n (.array size t)
      | none => none
  | .struct tag ms =>
    if ms = [] ∨ ¬ (ms.map (·.1)).Nodup ∨ (dictGet c.tags tag).isSome then none
    else
      match resolveAll outside c ms with
      | some ts => some { c with tags := c.tags ++ [(tag, .struct tag ts)] }
      | none => none
  | .typedefStruct n tag =>
    match dictGet c.tags tag with
    | some t => declare outside c n t
    | none => none
  | .include _ => some c
  | _ => none

/-- A list of lines. -/
def compile (outside : String → Bool) (c : CEnv) : List CLine → Option CEnv
  | [] => some c
  | l :: ls =>
    match compileLine outside c l with
    | some c' => compile outside c' ls
    | none => none

/-! ### The types of the workspace -/

/-- The short name. -/
def XElem.name : XElem → String
  | .base _ n _ => n
  | .impl _ n _ _ _ _ _ => n
  | .other _ _ => ""

/-- Types that others declare: base types without native declaration, and types whose emitter is
not the RTE. -/
inductive Elsewhere : XElem → Prop
  | baseNone (r n) : Elsewhere (.base r n none)
  | baseEmpty (r n) : Elsewhere (.base r n (some ""))
  | impl (r n c s e p subs) : ¬ SpellsRte e → Elsewhere (.impl r n c s (some e) p subs)

mutual
/-- The C type that a type of the workspace stands for. -/
inductive CType (env : Env) : XElem → Ty → Prop
  | elsewhere {x} : Elsewhere x → CType env x (.outside (XElem.name x))
  | base {r n native} : native ≠ "" → CType env (.base r n (some native)) (.outside native)
  | value {r n sym em p ps subs q y t} :
      ¬ Elsewhere (.impl r n (some "VALUE") sym em (some (p :: ps)) subs) →
      p.baseRef = some q → env q = some y → CType env y t →
      CType env (.impl r n (some "VALUE") sym em (some (p :: ps)) subs) t
  | typeRef {r n sym em p ps subs q y t} :
      ¬ Elsewhere (.impl r n (some "TYPE_REFERENCE") sym em (some (p :: ps)) subs) →
      p.implRef = some q → env q = some y → CType env y t →
      CType env (.impl r n (some "TYPE_REFERENCE") sym em (some (p :: ps)) subs) t
  | array {r n sym em props s size t} :
      ¬ Elsewhere (.impl r n (some "ARRAY") sym em props [s]) →
      s.arraySize = some size → SubCType env s t →
      CType env (.impl r n (some "ARRAY") sym em props [s]) (.array size t)
  | record {r n sym em props subs ts} :
      ¬ Elsewhere (.impl r n (some "STRUCTURE") sym em props subs) → SubCTypes env subs ts →
      CType env (.impl r n (some "STRUCTURE") sym em props subs) (.struct ("Rte_struct_" ++ n) ts)
/-- The C type of an element of an array or a structure. -/
inductive SubCType (env : Env) : SubElem → Ty → Prop
  | value {s p ps q y t} : s.category = some "VALUE" → s.props = some (p :: ps) →
      p.baseRef = some q → env q = some y → CType env y t → SubCType env s t
  | typeRef {s p ps q y t} : s.category = some "TYPE_REFERENCE" → s.props = some (p :: ps) →
      p.implRef = some q → env q = some y → CType env y t → SubCType env s t
/-- The members of a structure, in order. -/
inductive SubCTypes (env : Env) : List SubElem → List (String × Ty) → Prop
  | nil : SubCTypes env [] []
  | cons {s ss t ts} : SubCType env s t → SubCTypes env ss ts →
      SubCTypes env (s :: ss) ((s.name, t) :: ts)
end

/-- What C asks of the types of the workspace: arrays and structures are not empty, members have
different names, and the texts of native declarations and of types declared elsewhere are types. -/
structure CFit (env : Env) (outside : String → Bool) : Prop where
  sizes : ∀ {q r n sym em props s}, env q = some (.impl r n (some "ARRAY") sym em props [s]) →
    s.arraySize ≠ some 0
  members : ∀ {q r n sym em props subs},
    env q = some (.impl r n (some "STRUCTURE") sym em props subs) →
    subs ≠ [] ∧ (subs.map (·.name)).Nodup
  native : ∀ {q r n s}, env q = some (.base r n (some s)) → s ≠ "" → outside s = true
  elsewhere : ∀ {q x}, env q = some x → Elsewhere x → outside (XElem.name x) = true

/-- No type reference has another emitter (those are declared nevertheless, see
`C56_emitter_counterexample`). -/
def OwnRefs (env : Env) : Prop :=
  ∀ q r n sym e props subs,
    env q = some (.impl r n (some "TYPE_REFERENCE") sym (some e) props subs) → SpellsRte e

end Verif.Impl.Spec
