import Verif.Codec.Dispatch
/-
Packages and documents: `Writer.write_str`/`write_file`, `Reader.read_str`/`read_file`.
-/
namespace Verif.Codec
open Verif.Py Verif.Num Verif.Xml Verif.Xml.Spec

/-- A package (src/autosar/xml/element.py 2834-2843): the attributes of an identifiable element,
the elements and the sub-packages.  The name map and the parent links are left out (they are
modelled in `Verif/Pkg`). -/
inductive Pkg where
  | mk (head : List (String × Val Cls)) (elements : List (Val Cls)) (packages : List Pkg)
deriving Repr

namespace Pkg
def head : Pkg → List (String × Val Cls) | .mk h _ _ => h
def elements : Pkg → List (Val Cls) | .mk _ es _ => es
def packages : Pkg → List Pkg | .mk _ _ ps => ps
end Pkg

/-- The short name; `none` is Python's `None` (names that are no strings do not occur). -/
def nameOf (fs : List (String × Val Cls)) : Option String :=
  match dictGet fs "name" with
  | some (.str s) => some s
  | _ => none

/-- The short name of a package. -/
def Pkg.name (p : Pkg) : Option String := nameOf p.head

/-- The short name of an element. -/
def elemName : Val Cls → Option String
  | .obj _ fs => nameOf fs
  | _ => none

/-- A document (src/autosar/xml/document.py 10-36). -/
structure Document where
  schemaVersion : Nat
  packages : List Pkg
deriving Repr

/-! ### Writing -/

/-- One element of a package (src/autosar/xml/writer.py 541-548). -/
def writeElement (v : Val Cls) : Except PyErr (List Xml) :=
  match v with
  | .obj c fs =>
    match writerCollectable c with
    | some m => writeWith tables m none (.obj c fs)
    | none => .error .notImplemented
  | _ => .error .notImplemented

/-- The child element `tag` around elements, unless there is nothing to put into it
(writer.py 533-536). -/
def block (tag : String) (xs : List Xml) (empty : Bool) : List Xml :=
  if empty then [] else [.node tag [] xs]

mutual
/-- `_write_package` (writer.py 520-537, 539-549) -/
def writePkg : Pkg → Except PyErr Xml
  | .mk head es ps =>
    match writeWith tables .package none (.obj .Package head) with
    | .error e => .error e
    | .ok [.node tag as ks] =>
      match collect (es.map writeElement) with
      | .error e => .error e
      | .ok xs =>
        match writePkgs ps with
        | .error e => .error e
        | .ok ys =>
          .ok (.node tag as (ks ++ (block "ELEMENTS" xs es.isEmpty ++
            block "AR-PACKAGES" ys ps.isEmpty)))
    | .ok _ => .error .notImplemented
/-- The packages one after the other (writer.py 512-516, 551-555). -/
def writePkgs : List Pkg → Except PyErr (List Xml)
  | [] => .ok []
  | p :: ps =>
    match writePkg p with
    | .error e => .error e
    | .ok x =>
      match writePkgs ps with
      | .error e => .error e
      | .ok xs => .ok (x :: xs)
end

/-- `f'{n:05d}'` -/
def pad5 (n : Nat) : List Char := List.replicate (5 - (decStr n).length) '0' ++ decStr n

/-- `schema_file` (document.py 18-23) -/
def schemaFile (version : Nat) : String :=
  String.ofList ("AUTOSAR_".toList ++ pad5 version ++ ".xsd".toList)

/-- Attributes of the root element (writer.py 501-507). -/
def rootAttrs (skipRootAttr : Bool) (version : Nat) : Attrs :=
  if skipRootAttr then []
  else [("xsi:schemaLocation", "http://autosar.org/schema/r4.0 " ++ schemaFile version),
    ("xmlns", "http://autosar.org/schema/r4.0"),
    ("xmlns:xsi", "http://www.w3.org/2001/XMLSchema-instance")]

/-- `_write_document` (writer.py 498-510) and the text it yields: `write_str` (401-407), and
`write_file` (409-415) with `skipRootAttr = false`.
Simplification: the elements are written as for schema versions from 50 on (the exclusive areas of
runnables are written differently before, writer.py 4430-4436, 4454-4460). -/
def writeDoc (skipRootAttr : Bool) (doc : Document) : Except PyErr (List Char) :=
  match writePkgs doc.packages with
  | .error e => .error e
  | .ok xs =>
    writeDocument (.node "AUTOSAR" (rootAttrs skipRootAttr doc.schemaVersion)
      (block "AR-PACKAGES" xs doc.packages.isEmpty))

/-! ### Reading -/

/-- The subclasses of `ARElement` (src/autosar/xml/element.py 294) that are not abstract:
element.py 1259, 1435, 1518, 1580, 1944, 2141, 2211, 2264, 2323, 2395, 2770, 3171, 3370, 3469,
3526, 3751, 3849, 3895, 5185, 5327, 5911. -/
def isARElement : Cls → Bool
  | .CompuMethod | .DataConstraint | .Unit | .SwBaseType | .ImplementationDataType
  | .ApplicationPrimitiveDataType | .ApplicationArrayDataType | .ApplicationRecordDataType
  | .DataTypeMappingSet | .SwAddrMethod | .ConstantSpecification | .ModeDeclarationGroup
  | .SenderReceiverInterface | .NvDataInterface | .ParameterInterface | .ClientServerInterface
  | .ModeSwitchInterface | .E2EProfileCompatibilityProps | .ApplicationSoftwareComponentType
  | .CompositionSwComponentType | .SwcImplementation => true
  | _ => false

/-- An exception raised for one element: ParseError and DuplicateElement are reported and the
element is left out, unless reading stops on errors (reader.py 659-671). -/
def report {α : Type} (stop : Bool) (e : PyErr) (go : Except PyErr α) : Except PyErr α :=
  if stop then .error e
  else if e = .parseError ∨ e = .duplicateElement then go else .error e

/-- `_read_package_elements` (reader.py 646-673); `acc` are the elements read so far.  The
package has no sub-packages yet, so its name map has the names of `acc`. -/
def readElements (stop : Bool) (acc : List (Val Cls)) :
    List (RDen Cls RM) → Except PyErr (List (Val Cls))
  | [] => .ok acc
  | k :: ks =>
    match dictGet readerCollectable k.tag with
    | none => readElements stop acc ks
    | some m =>
      match k.read m with
      | .error e => report stop e (readElements stop acc ks)
      | .ok (.obj c fs) =>
        if isARElement c = false then .error .assertionError
        else if elemName (.obj c fs) ∈ acc.map elemName then
          report stop .duplicateElement (readElements stop acc ks)
        else readElements stop (acc ++ [.obj c fs]) ks
      | .ok _ => .error .assertionError

/-- A parsed element: what each reader method makes of it, and what `_read_package` makes of it. -/
inductive PDen where
  | mk (den : RDen Cls RM) (pkg : Except PyErr Pkg) (kids : List PDen)

namespace PDen
def den : PDen → RDen Cls RM | .mk d _ _ => d
def pkg : PDen → Except PyErr Pkg | .mk _ p _ => p
def kids : PDen → List PDen | .mk _ _ k => k
def tag (p : PDen) : String := p.den.tag
end PDen

/-- `element_map.get(tag)` (reader.py 69-88): the first child with the tag. -/
def childP (tag : String) (kids : List PDen) : Option PDen :=
  (kids.filter (fun k => k.tag = tag)).head?

/-- `_read_sub_packages` (reader.py 675-683) on the AR-PACKAGE children; `taken` are the names in
the package so far.  A name that is taken raises DuplicateElement (element.py 2851-2853), which
nobody catches. -/
def readSubs (taken : List (Option String)) : List PDen → Except PyErr (List Pkg)
  | [] => .ok []
  | k :: ks =>
    match k.pkg with
    | .error e => .error e
    | .ok p =>
      if p.name ∈ taken then .error .duplicateElement
      else
        match readSubs (taken ++ [p.name]) ks with
        | .error e => .error e
        | .ok ps => .ok (p :: ps)

/-- The elements of a package (reader.py 638, 641-642). -/
def readElementsOf (stop : Bool) (kids : List PDen) : Except PyErr (List (Val Cls)) :=
  match childP "ELEMENTS" kids with
  | none => .ok []
  | some x => readElements stop [] (x.kids.map PDen.den)

/-- `_read_package` (reader.py 621-630, 632-644) -/
def readPackage (stop : Bool) (den : RDen Cls RM) (kids : List PDen) : Except PyErr Pkg :=
  match den.read .package with
  | .error e => .error e
  | .ok (.obj _ head) =>
    match readElementsOf stop kids with
    | .error e => .error e
    | .ok es =>
      match childP "AR-PACKAGES" kids with
      | none => .ok (.mk head es [])
      | some x =>
        match readSubs (es.map elemName) (x.kids.filter fun k => k.tag = "AR-PACKAGE") with
        | .error e => .error e
        | .ok ps => .ok (.mk head es ps)
  | .ok _ => .error .assertionError

mutual
/-- What `_read_package` makes of an element and of those below it. -/
def pden (stop : Bool) (tail : Option String) : Dom → Option PDen
  | .elem tag attrs ds =>
    let kids := pdenKids stop ds
    match rden tables tail (.elem tag attrs ds) with
    | some k => some (.mk k (readPackage stop k kids) kids)
    | none => none
  | .text _ => none
def pdenKids (stop : Bool) : List Dom → List PDen
  | [] => []
  | d :: ds =>
    match pden stop (leadText ds) d with
    | some k => k :: pdenKids stop ds
    | none => pdenKids stop ds
end

/-- `self.document.append(package)` (element.py 3024-3035): a name that exists raises ValueError. -/
def readRoot (taken : List (Option String)) : List PDen → Except PyErr (List Pkg)
  | [] => .ok []
  | k :: ks =>
    match k.pkg with
    | .error e => .error e
    | .ok p =>
      if p.name ∈ taken then .error .valueError
      else
        match readRoot (taken ++ [p.name]) ks with
        | .error e => .error e
        | .ok ps => .ok (p :: ps)

/-- What `re.match(r'AUTOSAR_(\d+).xsd', text)` captures, after `AUTOSAR_`: all digits if they are
followed by a character and `xsd`, all but the last if they are followed by `xsd` (ASCII digits
only). -/
def versionHere (cs : List Char) : Option (List Char) :=
  let ds := cs.takeWhile Char.isDigit
  match cs.dropWhile Char.isDigit with
  | c :: 'x' :: 's' :: 'd' :: _ => if ds ≠ [] ∧ c ≠ '\n' then some ds else none
  | 'x' :: 's' :: 'd' :: _ => if 2 ≤ ds.length then some ds.dropLast else none
  | _ => none

/-- `re.search(r'AUTOSAR_(\d+).xsd', text)` (reader.py 592-593): the leftmost match. -/
def searchVersion : List Char → Option (List Char)
  | [] => none
  | c :: cs =>
    match (if "AUTOSAR_".toList.isPrefixOf (c :: cs) then versionHere (cs.drop 7) else none) with
    | some ds => some ds
    | none => searchVersion cs

/-- `key.endswith('schemaLocation')` -/
def isLocation (key : String) : Bool := "schemaLocation".toList.isSuffixOf key.toList

/-- `_read_schema_version` (reader.py 589-596): the reader's version stays as it is unless an
attribute tells another. -/
def readVersion (version : Nat) : Attrs → Nat
  | [] => version
  | (k, v) :: rest =>
    readVersion (if isLocation k then
      match searchVersion v.toList with
      | some ds => ofDigs 10 (ds.map fun c => c.toNat - 48)
      | none => version
    else version) rest

/-- `read_str`/`read_file` (reader.py 350-378, 581-585, 615-619) by a reader whose schema version
is `version` (117-127), for what the XML parser made of the text.
Simplifications: names are not resolved against name spaces, as `_clean_namespace` (433-441)
removes the one the writer declares; the elements are read as for schema versions from 50 on
(5080, 5108). -/
def readTree (stop : Bool) (version : Nat) : Dom → Except PyErr Document
  | .elem _ attrs ds =>
    let nodes := ((pdenKids stop ds).filter fun k => k.tag = "AR-PACKAGES").flatMap fun k =>
      k.kids.filter fun k => k.tag = "AR-PACKAGE"
    match readRoot [] nodes with
    | .error e => .error e
    | .ok ps => .ok ⟨readVersion version attrs, ps⟩
  | .text _ => .error .parseError

/-- `read_str`/`read_file` (reader.py 350-378).  The error for text that is not well formed is the
parser's. -/
def readDoc (stop : Bool) (version : Nat) (text : List Char) : Except PyErr Document :=
  match parseDocument text with
  | some d => readTree stop version d
  | none => .error .parseError

end Verif.Codec
