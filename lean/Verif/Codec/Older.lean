import Verif.Codec.Package
/-
Schema versions before 50, in which the exclusive areas of runnables are written and read as plain
references.
-/
namespace Verif.Codec.Older
open Verif.Py Verif.Num Verif.Xml Verif.Xml.Spec

/-- The attributes that are written differently (src/autosar/xml/writer.py 4430-4436, 4454-4460;
src/autosar/xml/reader.py 5080-5088, 5108-5116). -/
def isAreas (c : Cls) (attr : String) : Bool :=
  c = .RunnableEntity && (attr = "can_enter_leave" || attr = "runs_insides")

/-! ### Writer and reader methods -/

/-- `_write_executable_entity` for `schema_version < 50` (writer.py 4418-4466). -/
def executableEntityW : List (WItem Cls WM) :=
  [Writer.list "activation_reasons" "ACTIVATION-REASONS" (.meth .executable_entity_activation_reason none),
   Writer.list "can_enter_leave" "CAN-ENTER-EXCLUSIVE-AREA-REFS"
     (.meth .exclusive_area_ref (some "CAN-ENTER-EXCLUSIVE-AREA-REF")),
   Writer.list "exclusive_area_nesting_order" "EXCLUSIVE-AREA-NESTING-ORDER-REFS"
     (.meth .exclusive_area_nesting_order_ref (some "EXCLUSIVE-AREA-NESTING-ORDER-REF")),
   Writer.opt "minimum_start_interval" (.text "MINIMUM-START-INTERVAL" .number),
   Writer.opt "reentrancy_level" (.text "REENTRANCY-LEVEL" .enum),
   Writer.list "runs_insides" "RUNS-INSIDE-EXCLUSIVE-AREA-REFS"
     (.meth .exclusive_area_ref (some "RUNS-INSIDE-EXCLUSIVE-AREA-REF")),
   Writer.opt "sw_addr_method" (.meth .sw_addr_method_ref none)]

/-- `_write_runnable_entity` (writer.py 4468-4482). -/
def runnableEntityW : WMethod Cls WM :=
  .node (some .RunnableEntity) (some "RUNNABLE-ENTITY") [] false
    (Writer.referrable ++ Writer.multilanguage_referrable ++ Writer.identifiable ++
      executableEntityW ++ Writer.runnable_entity_group)

/-- `_read_executable_entity` for `schema_version < 50` (reader.py 5068-5126). -/
def executableEntityR : List (RItem RM) :=
  [Reader.kids "ACTIVATION-REASONS" "activation_reasons" "EXECUTABLE-ENTITY-ACTIVATION-REASON"
     (.meth .executable_entity_activation_reason),
   Reader.kids "CAN-ENTER-EXCLUSIVE-AREA-REFS" "can_enter_leave" "CAN-ENTER-EXCLUSIVE-AREA-REF"
     (.meth .exclusive_area_ref),
   Reader.kids "EXCLUSIVE-AREA-NESTING-ORDER-REFS" "exclusive_area_nesting_order"
     "EXCLUSIVE-AREA-NESTING-ORDER-REF" (.meth .exclusive_area_nesting_order_ref),
   Reader.child "MINIMUM-START-INTERVAL" "minimum_start_interval" (.conv .castFloat),
   Reader.child "REENTRANCY-LEVEL" "reentrancy_level" (.conv (.enum "ReentrancyLevel")),
   Reader.kids "RUNS-INSIDE-EXCLUSIVE-AREA-REFS" "runs_insides" "RUNS-INSIDE-EXCLUSIVE-AREA-REF"
     (.meth .exclusive_area_ref),
   Reader.child "SW-ADDR-METHOD-REF" "sw_addr_method" (.meth .sw_addr_method_ref)]

/-- `_read_runnable_entity` (reader.py 5128-5141). -/
def runnableEntityR : RMethod Cls RM :=
  .node .RunnableEntity
    (Reader.referrable ++ Reader.multi_language_referrable ++ Reader.identifiable ++
      executableEntityR ++ Reader.runnable_entity_group)

/-- The writer methods for `schema_version < 50`. -/
def olderW (m : WM) (tag : Option String) : WMethod Cls WM :=
  match m with
  | .runnable_entity => runnableEntityW
  | m => wm m tag

/-- The reader methods for `schema_version < 50`. -/
def olderR (m : RM) (tag : String) : RMethod Cls RM :=
  match m with
  | .runnable_entity => runnableEntityR
  | m => rm m tag

/-- The exclusive areas as references: what the writer takes from an object and what the reader hands
to the constructor. -/
def olderField (c : Cls) (f : Field Cls) : Field Cls :=
  if isAreas c f.attr then { f with alts := [.ref "ExclusiveAreaRef"] } else f

/-- All tables for `schema_version < 50`. -/
def older : Tables Cls WM RM where
  wm := olderW
  rm := olderR
  ctor c := (Schema.ctor c).map (olderField c)
  schema c := (covered c).map (olderField c)
  lost := lossy
  mro := mro

/-! ### Exclusive areas as references -/

/-- `child_elem.exclusive_area` (writer.py 4433, 4457).  An object without one stays as it is; the
writer of references refuses it like `None`. -/
def areaRef : Val Cls → Val Cls
  | .obj c fs =>
    match dictGet fs "exclusive_area" with
    | some (.ref r) => .ref r
    | _ => .obj c fs
  | v => v

/-- The exclusive areas of a runnable (writer.py 4432, 4456). -/
def areaRefs : Val Cls → Val Cls
  | .list vs => .list (vs.map areaRef)
  | v => v

mutual
/-- The object as the writer sees it.
Simplification: the code takes the references while it writes. -/
def lower : Val Cls → Val Cls
  | .obj c fs => .obj c (lowerFields c fs)
  | .list vs => .list (lowerList vs)
  | .str s => .str s
  | .bool b => .bool b
  | .num n => .num n
  | .numval n => .numval n
  | .enum m => .enum m
  | .limit n m => .limit n m
  | .ref r => .ref r
def lowerFields (c : Cls) : List (String × Val Cls) → List (String × Val Cls)
  | [] => []
  | (k, v) :: rest => (k, if isAreas c k then areaRefs v else lower v) :: lowerFields c rest
def lowerList : List (Val Cls) → List (Val Cls)
  | [] => []
  | v :: vs => lower v :: lowerList vs
end

/-- `ExclusiveAreaRefConditional(value)` for references (src/autosar/xml/element.py 6055-6058,
6076-6079). -/
def areaOf : Val Cls → Val Cls
  | .ref r => .obj .ExclusiveAreaRefConditional [("exclusive_area", .ref r)]
  | v => v

/-- `append_can_enter_leave`, `append_runs_insides` for every value of the list (element.py
6020-6025, 6034-6039). -/
def areasOf : Val Cls → Val Cls
  | .list vs => .list (vs.map areaOf)
  | v => v

mutual
/-- The object as the constructors leave it.
Simplification: the code makes the objects when the constructor of the runnable is called. -/
def raise : Val Cls → Val Cls
  | .obj c fs => .obj c (raiseFields c fs)
  | .list vs => .list (raiseList vs)
  | .str s => .str s
  | .bool b => .bool b
  | .num n => .num n
  | .numval n => .numval n
  | .enum m => .enum m
  | .limit n m => .limit n m
  | .ref r => .ref r
def raiseFields (c : Cls) : List (String × Val Cls) → List (String × Val Cls)
  | [] => []
  | (k, v) :: rest => (k, if isAreas c k then areasOf v else raise v) :: raiseFields c rest
def raiseList : List (Val Cls) → List (Val Cls)
  | [] => []
  | v :: vs => raise v :: raiseList vs
end

/-! ### Single elements -/

/-- The tables for a schema version (writer.py 4430, 4454; reader.py 5080, 5108). -/
def tablesFor (version : Nat) : Tables Cls WM RM := if version < 50 then older else tables

/-- What a writer with this schema version makes of an object before it is written. -/
def lowerFor (version : Nat) (v : Val Cls) : Val Cls := if version < 50 then lower v else v

/-- What the constructors make of an object that a reader with this schema version has read. -/
def raiseFor (version : Nat) (v : Val Cls) : Val Cls := if version < 50 then raise v else v

/-- `Writer(schema_version=version).write_str_elem(elem, tag)`, writer.py 184-190, 417-432. -/
def writeStrElem (version : Nat) (tag : Option String) (v : Val Cls) : Except PyErr (List Char) :=
  match writerOf v with
  | none => .error .notImplemented
  | some m =>
    if callable m tag then
      match writeWith (tablesFor version) m tag (lowerFor version v) with
      | .ok [x] => writeElem x
      | .ok _ => .error .notImplemented
      | .error e => .error e
    else .error .typeError

/-- `Reader(schema_version=version).read_str_elem(xml, type_name)`, reader.py 117-127, 380-394. -/
def readStrElem (version : Nat) (typeName : Option String) (text : List Char) :
    Except PyErr (Val Cls) :=
  match parseElement text with
  | some (.elem tag as ds) =>
    match readerOf typeName tag with
    | some m =>
      match readWith (tablesFor version) m (.elem tag as ds) with
      | .ok v => .ok (raiseFor version v)
      | .error e => .error e
    | none => .error .notImplemented
  | some (.text _) => .error .parseError
  | none => .error .parseError

/-! ### Packages and documents -/

/-- One element of a package (writer.py 541-548). -/
def writeElement (T : Tables Cls WM RM) (v : Val Cls) : Except PyErr (List Xml) :=
  match v with
  | .obj c fs =>
    match writerCollectable c with
    | some m => writeWith T m none (.obj c fs)
    | none => .error .notImplemented
  | _ => .error .notImplemented

mutual
/-- `_write_package` (writer.py 520-537, 539-549) with the methods of `T`. -/
def writePkg (T : Tables Cls WM RM) : Pkg → Except PyErr Xml
  | .mk head es ps =>
    match writeWith T .package none (.obj .Package head) with
    | .error e => .error e
    | .ok [.node tag as ks] =>
      match collect (es.map (writeElement T)) with
      | .error e => .error e
      | .ok xs =>
        match writePkgs T ps with
        | .error e => .error e
        | .ok ys =>
          .ok (.node tag as (ks ++ (block "ELEMENTS" xs es.isEmpty ++
            block "AR-PACKAGES" ys ps.isEmpty)))
    | .ok _ => .error .notImplemented
/-- The packages one after the other (writer.py 512-516, 551-555). -/
def writePkgs (T : Tables Cls WM RM) : List Pkg → Except PyErr (List Xml)
  | [] => .ok []
  | p :: ps =>
    match writePkg T p with
    | .error e => .error e
    | .ok x =>
      match writePkgs T ps with
      | .error e => .error e
      | .ok xs => .ok (x :: xs)
end

mutual
/-- What `_read_package` (reader.py 621-644) makes of an element and of those below it, with the
methods of `T`. -/
def pden (T : Tables Cls WM RM) (stop : Bool) (tail : Option String) : Dom → Option PDen
  | .elem tag attrs ds =>
    let kids := pdenKids T stop ds
    match rden T tail (.elem tag attrs ds) with
    | some k => some (.mk k (readPackage stop k kids) kids)
    | none => none
  | .text _ => none
def pdenKids (T : Tables Cls WM RM) (stop : Bool) : List Dom → List PDen
  | [] => []
  | d :: ds =>
    match pden T stop (leadText ds) d with
    | some k => k :: pdenKids T stop ds
    | none => pdenKids T stop ds
end

/-- The attributes of an object. -/
def fieldsOf : Val Cls → List (String × Val Cls)
  | .obj _ fs => fs
  | _ => []

mutual
/-- `f` on a package, on every element and on the packages below it. -/
def mapPkg (f : Val Cls → Val Cls) : Pkg → Pkg
  | .mk head es ps => .mk (fieldsOf (f (.obj .Package head))) (es.map f) (mapPkgs f ps)
def mapPkgs (f : Val Cls → Val Cls) : List Pkg → List Pkg
  | [] => []
  | p :: ps => mapPkg f p :: mapPkgs f ps
end

/-- `_write_document` (writer.py 498-510) and the text it yields: `write_str` (401-407), and
`write_file` (409-415) with `skipRootAttr = false`, for every schema version. -/
def writeDoc (skipRootAttr : Bool) (doc : Document) : Except PyErr (List Char) :=
  match writePkgs (tablesFor doc.schemaVersion)
      (mapPkgs (lowerFor doc.schemaVersion) doc.packages) with
  | .error e => .error e
  | .ok xs =>
    writeDocument (.node "AUTOSAR" (rootAttrs skipRootAttr doc.schemaVersion)
      (block "AR-PACKAGES" xs doc.packages.isEmpty))

/-- `read_str`/`read_file` (reader.py 350-378, 581-585, 615-619) by a reader whose schema version
is `version` (117-127), for what the XML parser made of the text.  The version in the text comes
first (582, 589-596).
Simplification: names are not resolved against name spaces, as `_clean_namespace` (433-441)
removes the one the writer declares. -/
def readTree (stop : Bool) (version : Nat) : Dom → Except PyErr Document
  | .elem _ attrs ds =>
    let n := readVersion version attrs
    let nodes := ((pdenKids (tablesFor n) stop ds).filter fun k => k.tag = "AR-PACKAGES").flatMap
      fun k => k.kids.filter fun k => k.tag = "AR-PACKAGE"
    match readRoot [] nodes with
    | .error e => .error e
    | .ok ps => .ok ⟨n, mapPkgs (raiseFor n) ps⟩
  | .text _ => .error .parseError

/-- `read_str`/`read_file` (reader.py 350-378).  The error for text that is not well formed is the
parser's. -/
def readDoc (stop : Bool) (version : Nat) (text : List Char) : Except PyErr Document :=
  match parseDocument text with
  | some d => readTree stop version d
  | none => .error .parseError

end Verif.Codec.Older
