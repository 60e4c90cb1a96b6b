import Verif.Codec.Rename
import Verif.Names.Lemmas
/-
Objects in which the access points of runnables have names of their own.
-/
namespace Verif.Codec.RenameSpec
open Verif.Names Verif.Codec Verif.Codec.Rename

/-- `x` is `v` or somewhere inside it. -/
inductive Inside (x : Val Cls) : Val Cls → Prop
  | here : Inside x x
  | list {y : Val Cls} {vs : List (Val Cls)} : y ∈ vs → Inside x y → Inside x (.list vs)
  | obj {k : String} {y : Val Cls} {c : Cls} {fs : List (String × Val Cls)} :
      (k, y) ∈ fs → Inside x y → Inside x (.obj c fs)

/-- The access points of a runnable, by kind. -/
def accessLists : List String :=
  ["async_server_call_result_point", "data_read_access", "data_receive_point_by_argument",
   "data_receive_point_by_value", "data_send_point", "data_write_access",
   "internal_triggering_point", "mode_switch_point", "parameter_access", "read_local_variable",
   "write_local_variable", "server_call_point", "wait_point"]

/-- In every runnable in `v`, no two access points of a kind have the same name, and there are no
characters in the names that mean something in regular expressions. -/
def OwnNames (v : Val Cls) : Prop :=
  ∀ fs, Inside (.obj .RunnableEntity fs) v → ∀ k ∈ accessLists, ∀ vs, (k, .list vs) ∈ fs →
    (vs.map nameIn).Nodup ∧ ∀ x ∈ vs, Plain (nameIn x)

mutual
/-- So it is in all elements of a package and of the packages below it. -/
def OwnNamesPkg : Pkg → Prop
  | .mk _ elements packages => (∀ v ∈ elements, OwnNames v) ∧ OwnNamesPkgs packages
def OwnNamesPkgs : List Pkg → Prop
  | [] => True
  | p :: ps => OwnNamesPkg p ∧ OwnNamesPkgs ps
end

end Verif.Codec.RenameSpec
