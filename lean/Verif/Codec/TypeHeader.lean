import Verif.Codec.Find
import Verif.Codec.Owner
import Verif.Impl.Header
import Verif.Pkg.Spec
/-
What the implementation model (src/autosar/model/implementation.py) reads of the packages of a
workspace: it looks elements up with `find` and `ref()` and reads attributes of base types and
implementation data types.  Line numbers without a file are of src/autosar/xml/element.py.
-/
namespace Verif.Codec.TypeHeader
open Verif.Py Verif.Impl Verif.Codec Verif.Codec.Find Verif.Pkg.Spec
open Verif.Codec.Owner (shortName refMethod clsOf)

/-! ### Attributes -/

/-- An attribute of an object. -/
def attr : Val Cls → String → Option (Val Cls)
  | .obj _ fs, a => dictGet fs a
  | _, _ => none

/-- A text, or None. -/
def strOf : Option (Val Cls) → Option String
  | some (.str s) => some s
  | _ => none

/-- `str(ref)`, or None (base.py 197-199). -/
def refOf : Option (Val Cls) → Option String
  | some (.ref r) => some r.value
  | _ => none

/-- An int, or None. -/
def natOf : Option (Val Cls) → Option Nat
  | some (.num (.int i)) => some i.toNat
  | _ => none

/-- `sw_data_def_props`: the variants, or None (1794-1838). -/
def variants : Option (Val Cls) → Option (List (Val Cls))
  | some (.obj .SwDataDefProps fs) => some (members (.obj .SwDataDefProps fs) "variants")
  | _ => none

/-- `ptr_target_props` with the references of its own properties (1650-1672; implementation.py
253-257). -/
def ptrOf : Option (Val Cls) → Option (Option String × Option (List (Option String × Option String)))
  | some (.obj .SwPointerTargetProps fs) =>
    some (strOf (dictGet fs "target_category"),
      (variants (dictGet fs "sw_data_def_props")).map fun vs =>
        vs.map fun v => (refOf (attr v "base_type_ref"), refOf (attr v "impl_data_type_ref")))
  | _ => none

/-- What is read of `SwDataDefPropsConditional` (1675-1782; implementation.py 118, 136, 253). -/
def propsOf (v : Val Cls) : Props where
  baseRef := refOf (attr v "base_type_ref")
  implRef := refOf (attr v "impl_data_type_ref")
  ptr := ptrOf (attr v "ptr_target_props")

/-- `sw_data_def_props` of a type or an element of a type. -/
def allProps (v : Val Cls) : Option (List Props) :=
  (variants (attr v "sw_data_def_props")).map fun vs => vs.map propsOf

/-- What is read of `ImplementationDataTypeElement` (1883-1921; implementation.py 150-161, 172-200,
211-246). -/
def subOf (v : Val Cls) : SubElem where
  name := shortName v
  category := strOf (attr v "category")
  props := allProps v
  arraySize := natOf (attr v "array_size")
  policy := (attr v "array_impl_policy").isSome || (attr v "array_size_handling").isSome ||
    (attr v "array_size_semantics").isSome

/-- `symbol_props.symbol`, or None (1861-1871; implementation.py 119-121). -/
def symbolText : Option (Val Cls) → Option String
  | some (.obj .SymbolProps fs) => strOf (dictGet fs "symbol")
  | _ => none

/-- What is read of an element whose `ref()` is `ref`: `SwBaseType` (1580-1601),
`ImplementationDataType` (1953-1977).  Of elements of other classes it is only asked for the
reference, if they have the method (implementation.py 52, 73); the class is left out. -/
def typeOf (ref : String) (v : Val Cls) : Except PyErr XElem :=
  match v with
  | .obj .SwBaseType _ => .ok (.base ref (shortName v) (strOf (attr v "native_declaration")))
  | .obj .ImplementationDataType _ =>
    .ok (.impl ref (shortName v) (strOf (attr v "category")) (symbolText (attr v "symbol_props"))
      (strOf (attr v "type_emitter")) (allProps v) ((members v "sub_elements").map subOf))
  | .obj c _ =>
    match refMethod c with
    | some _ => .ok (.other ref "")
    | none => .error .attributeError
  | _ => .error .attributeError

/-- The part `x` of an element: sub-elements of implementation data types do not know where they are
(1979-1986), so that `str(ref())` is "None"; modes, ports and component prototypes do (3244, 4884,
5376), and transitions and connectors have no such method. -/
def partOf (ref : String) (v x : Val Cls) : Except PyErr XElem :=
  match clsOf x with
  | none => .error .attributeError
  | some c =>
    match refMethod c with
    | none => .error .attributeError
    | some _ =>
      if clsOf v = some .ImplementationDataType then .ok (.other "None" "")
      else .ok (.other (ref ++ "/" ++ shortName x) "")

/-! ### Places -/

/-- What `find` finds, and the names on the way to the package or element. -/
inductive Place where
  | pkg (way : List String) (p : Pkg)
  | element (way : List String) (v : Val Cls)
  /-- the part `x` of an element -/
  | part (way : List String) (v x : Val Cls)

mutual
/-- `Package.find` (2897-2908), as `Find.findPkg`, with the names on the way. -/
def locatePkg (acc : List String) : Pkg → List Char → Except PyErr (Option Place)
  | .mk _ es ps, ref =>
    match named es (String.ofList (partL '/' (stripLead '/' ref)).1) with
    | some v =>
      if (partL '/' (stripLead '/' ref)).2 ≠ [] then
        (elemFind v (partL '/' (stripLead '/' ref)).2).map fun r =>
          r.map (.part (acc ++ [String.ofList (partL '/' (stripLead '/' ref)).1]) v)
      else .ok (some (.element (acc ++ [String.ofList (partL '/' (stripLead '/' ref)).1]) v))
    | none => locatePkgs acc ps (partL '/' (stripLead '/' ref))
/-- As `Find.findPkgs` (2902-2908, 3048-3053). -/
def locatePkgs (acc : List String) : List Pkg → List Char × List Char → Except PyErr (Option Place)
  | [], _ => .ok none
  | p :: ps, parts =>
    if p.name = some (String.ofList parts.1) then
      if parts.2 ≠ [] then locatePkg (acc ++ [String.ofList parts.1]) p parts.2
      else .ok (some (.pkg (acc ++ [String.ofList parts.1]) p))
    else locatePkgs acc ps parts
end

/-- `PackageCollection.find` (3038-3053). -/
def locate (ps : List Pkg) (ref : String) : Except PyErr (Option Place) :=
  locatePkgs [] ps (partL '/' (stripLead '/' ref.toList))

/-- What is read of it, with `ref()` as `_calc_ref_string` makes it (268-280; packages 2934-2941). -/
def foundAs : Place → Except PyErr XElem
  | .pkg way _ => .ok (.other (absRef way) "")
  | .element way v => typeOf (absRef way) v
  | .part way v x => partOf (absRef way) v x

/-- The workspace with these packages, for the implementation model (implementation.py 39-52). -/
def envOf (ps : List Pkg) : Env where
  find r :=
    match locate ps r with
    | .error e => .error e
    | .ok none => .ok none
    | .ok (some x) => (foundAs x).map some

/-- `ImplementationModel(workspace)`, `create_from_ref(ref)` for each reference (failing ones do not
end it), `TypeGenerator(model).write_type_header` up to printing (type_generator.py 26-41). -/
def header (limit : Nat) (ps : List Pkg) (refs : List String) : Except PyErr (List CLine) :=
  headerLines (Impl.Spec.run limit (envOf ps) .empty (refs.map fun r => .byRef r true))

end Verif.Codec.TypeHeader
