import Verif.Codec.Older
import Verif.Codec.PackageSpec
/-
What it means that objects and documents survive in every schema version.
-/
namespace Verif.Codec.Older.Spec
open Verif.Py Verif.Codec.Spec

/-- The entry names its exclusive area. -/
def named : Val Cls → Bool
  | .obj _ fs =>
    match dictGet fs "exclusive_area" with
    | some (.ref _) => true
    | _ => false
  | _ => false

/-- All entries of the list do. -/
def allNamed : Val Cls → Bool
  | .list vs => vs.all named
  | _ => true

mutual
/-- Every exclusive area a runnable can enter or runs in is named, in every runnable of the
object. -/
def areasNamed : Val Cls → Bool
  | .obj c fs => areasNamedFields c fs
  | .list vs => areasNamedList vs
  | _ => true
def areasNamedFields (c : Cls) : List (String × Val Cls) → Bool
  | [] => true
  | (k, v) :: rest =>
    (if c = .RunnableEntity ∧ (k = "can_enter_leave" ∨ k = "runs_insides") then allNamed v
     else areasNamed v) && areasNamedFields c rest
def areasNamedList : List (Val Cls) → Bool
  | [] => true
  | v :: vs => areasNamed v && areasNamedList vs
end

mutual
/-- The same for a package (which holds no runnables itself), for every element of it and for the
packages below it. -/
def areasNamedPkg : Pkg → Bool
  | .mk head elements packages =>
    areasNamed (.obj .Package head) && elements.all areasNamed && areasNamedPkgs packages
def areasNamedPkgs : List Pkg → Bool
  | [] => true
  | p :: ps => areasNamedPkg p && areasNamedPkgs ps
end

/-- Written by `Writer(schema_version=n).write_str_elem(v, tag)` and read by
`Reader(schema_version=n).read_str_elem(text, type_name)`, the object is the same, up to what is lost
in every version (`remains`). -/
def SurvivesIn (n : Nat) (tag typeName : Option String) (v : Val Cls) : Prop :=
  ∃ text v', writeStrElem n tag v = .ok text ∧ readStrElem n typeName text = .ok v' ∧
    Same (remains v) v' ∧ (noWhole v = true → v' = remains v)

/-- Both before 50, or both from 50 on. -/
def SameSide (m n : Nat) : Prop := m < 50 ↔ n < 50

end Verif.Codec.Older.Spec
