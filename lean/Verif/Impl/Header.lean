import Verif.Impl.Model
import Verif.Impl.Spec
/-
The header file Rte_Type.h as handed to the library that prints C code (cfile):
src/autosar/generator/type_generator.py.
-/
namespace Verif.Impl
open Verif.Py

/-- Lines of C code (the calls of `C.…`). -/
inductive CLine where
  | ifndef (name : String)
  | define (name : String)
  | endif
  | blank
  | line (text : String)
  | blockComment (text : String)
  | include (file : String)
  /-- `typedef <target> <name>;` -/
  | typedef (name target : String)
  /-- `typedef <target> <name>[<size>];` -/
  | typedefArray (name target : String) (size : Nat)
  /-- `struct <tag> { <type> <member>; … };` -/
  | struct (tag : String) (members : List (String × String))
  /-- `typedef struct <tag> <name>;` -/
  | typedefStruct (name tag : String)
deriving DecidableEq, Repr

/-- The text that stands for a type: names are those of the model elements (type_generator.py 109,
111, 113, 124, 126, 128). -/
def typeText (objs : List RObj) : TypeText → String
  | .native s => s
  | .named o =>
    match objs[o]? with
    | some obj => Spec.nameOf obj
    | none => ""

/-- The lines of one type definition (type_generator.py 109-115, 132, 147-153). -/
def declLines (objs : List RObj) : Decl → List CLine
  | .typedef n t => [.typedef n (typeText objs t)]
  | .arrayTypedef n t size => [.typedefArray n (typeText objs t) size]
  | .structTypedef n ms =>
    [.struct ("Rte_struct_" ++ n) (ms.map fun m => (m.1, typeText objs m.2)),
     .typedefStruct n ("Rte_struct_" ++ n)]

/-- `write_type_defs_str` (type_generator.py 91-98) up to printing. -/
def typeDefLines (st : State) : Except PyErr (List CLine) :=
  match genTypeDefs st with
  | .error e => .error e
  | .ok ds => .ok (ds.flatMap (declLines st.objs))

/-- `_create_code_sequence` (type_generator.py 43-67); comments behind `#endif` are left out. -/
def headerLines (st : State) : Except PyErr (List CLine) :=
  match typeDefLines st with
  | .error e => .error e
  | .ok ls => .ok (
      [.ifndef "RTE_TYPE_H_",
       .define "RTE_TYPE_H_",
       .blank,
       .ifndef "__cplusplus",
       .line "extern \"C\"",
       .line "{",
       .endif,
       .blank,
       .blockComment "*             INCLUDES             *",
       .include "Rte.h",
       .blank,
       .blockComment "*     CONSTANTS AND DATA TYPES     *",
       .blank] ++ ls ++
      [.blank,
       .ifndef "__cplusplus",
       .line "}",
       .endif,
       .endif])

end Verif.Impl
