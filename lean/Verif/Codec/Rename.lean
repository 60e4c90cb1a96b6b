import Verif.Codec.PackageSpec
import Verif.Names.Model
/-
The names of access points while runnables are constructed (src/autosar/xml/element.py; all line
numbers are of that file).  The constructor of `RunnableEntity` (6500-6605) hands the elements of
its lists one by one to the `append_*` methods, 13 of which call `make_unique_name_in_list`, which
may rename elements that are already in the list.  `build` (Codec/Lang.lean) leaves the names as
they are; here is what the constructor makes of them.
-/
namespace Verif.Codec.Rename
open Verif.Py Verif.Names Verif.Codec

/-- The lists of a runnable whose `append_*` method calls `make_unique_name_in_list`
(6943-7012, 7025-7033, 7047-7112). -/
def renamed : List String :=
  ["async_server_call_result_point", "data_read_access", "data_receive_point_by_argument",
   "data_receive_point_by_value", "data_send_point", "data_write_access",
   "internal_triggering_point", "mode_switch_point", "parameter_access", "read_local_variable",
   "write_local_variable", "server_call_point", "wait_point"]

/-- `element.name`. -/
def nameIn : Val Cls → Name
  | .obj _ fs =>
    match dictGet fs "name" with
    | some (.str s) => s.toList
    | _ => []
  | _ => []

/-- The attributes with another name. -/
def setNameIn (n : Name) : List (String × Val Cls) → List (String × Val Cls)
  | [] => []
  | (k, v) :: rest =>
    if k = "name" then
      match v with
      | .str _ => (k, .str (String.ofList n)) :: rest
      | v => (k, v) :: rest
    else (k, v) :: setNameIn n rest

/-- `element.name = name` (326). -/
def setName : Val Cls → Name → Val Cls
  | .obj c fs, n => .obj c (setNameIn n fs)
  | v, _ => v

/-- `append_*` of one of these lists (e.g. 6956-6966): other elements may get new names, `element`
keeps its own, because the name made is not used.  `none`: `re.compile` (316) raises, or the regular
expression is outside the model of names (`compile`, Names/Model.lean). -/
def addNamed (D : Digits) (vs : List (Val Cls)) (x : Val Cls) : Option (List (Val Cls)) :=
  match makeUnique D (vs.map nameIn) (nameIn x) with
  | none => none
  | some r => some (List.zipWith setName vs r.1 ++ [x])

/-- `for elem in argument: self.append_*(elem)` (e.g. 6510-6514). -/
def addAll (D : Digits) : List (Val Cls) → List (Val Cls) → Option (List (Val Cls))
  | vs, [] => some vs
  | vs, x :: xs =>
    match addNamed D vs x with
    | none => none
    | some vs' => addAll D vs' xs

/-- The lists of a runnable after its constructor. -/
def renameFields (D : Digits) : List (String × Val Cls) → Option (List (String × Val Cls))
  | [] => some []
  | (k, v) :: rest =>
    match (if k ∈ renamed then
        match v with
        | .list vs => (addAll D [] vs).map .list
        | v => some v
      else some v), renameFields D rest with
    | some v', some rest' => some ((k, v') :: rest')
    | _, _ => none

mutual
/-- The object after the constructors of the runnables in it, at every depth.  Simplification: the
constructors run while the file is read, here they run afterwards, which makes a difference only for
which of several errors is raised. -/
def settle (D : Digits) : Val Cls → Option (Val Cls)
  | .list vs => (settleList D vs).map .list
  | .obj c fs =>
    match settleFields D fs with
    | none => none
    | some fs' => (if c = .RunnableEntity then renameFields D fs' else some fs').map (.obj c)
  | v => some v
def settleList (D : Digits) : List (Val Cls) → Option (List (Val Cls))
  | [] => some []
  | v :: vs =>
    match settle D v, settleList D vs with
    | some v', some vs' => some (v' :: vs')
    | _, _ => none
def settleFields (D : Digits) : List (String × Val Cls) → Option (List (String × Val Cls))
  | [] => some []
  | (k, v) :: rest =>
    match settle D v, settleFields D rest with
    | some v', some rest' => some ((k, v') :: rest')
    | _, _ => none
end

/-- `read_str_elem`, with the names the constructors give; `none` as in `addNamed`. -/
def readNamed (D : Digits) (typeName : Option String) (text : List Char) :
    Option (Except PyErr (Val Cls)) :=
  match readStrElem typeName text with
  | .error e => some (.error e)
  | .ok v => (settle D v).map .ok

mutual
/-- Packages, likewise. -/
def settlePkg (D : Digits) : Pkg → Option Pkg
  | .mk head elements packages =>
    match settleList D elements, settlePkgs D packages with
    | some es, some ps => some (.mk head es ps)
    | _, _ => none
def settlePkgs (D : Digits) : List Pkg → Option (List Pkg)
  | [] => some []
  | p :: ps =>
    match settlePkg D p, settlePkgs D ps with
    | some p', some ps' => some (p' :: ps')
    | _, _ => none
end

/-- `read_str`, likewise. -/
def readNamedDoc (D : Digits) (stop : Bool) (version : Nat) (text : List Char) :
    Option (Except PyErr Document) :=
  match readDoc stop version text with
  | .error e => some (.error e)
  | .ok doc => (settlePkgs D doc.packages).map fun ps => .ok { doc with packages := ps }

end Verif.Codec.Rename
