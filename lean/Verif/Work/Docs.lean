import Verif.Work.Template
/-
Documents: src/autosar/xml/workspace.py 19-54, 172-202, 226-276; src/autosar/xml/document.py.
-/
namespace Verif.Work
open Verif.Py Verif.Pkg

/-- `DocumentConfig` (workspace.py 19-33); `document` is the Document object, a package
collection. -/
structure DocConfig where
  document : Nat
  filePath : String
  packageRefs : List String

/-- `PackageToDocumentMapping` (workspace.py 36-54).  `accepts x` is
`isinstance(x, element_types)`; an object's class never changes, so this depends on the object
only. -/
structure Mapping where
  packageRef : String
  accepts : Nat → Bool
  suffixes : List String

/-- One `writer.write_file(document, file_path)`: the document object and the objects as they are
at that moment.  Simplification: serialisation itself succeeds (its text is the subject of other
modules). -/
structure Written where
  filePath : String
  document : Nat
  heap : Heap

/-- The workspace as far as documents are concerned (workspace.py 81-89); `out` is the list of
files written so far. -/
structure DocWs where
  heap : Heap
  root : Nat
  docs : List DocConfig
  mappings : List Mapping
  docRoot : Option String
  out : List Written

/-- `create_document` (workspace.py 172-177, 24-33); `none` is `packages=None`. -/
def createDocument (w : DocWs) (path : String) (refs : Option (List String)) :
    DocWs × Except PyErr Unit :=
  let w1 := { w with heap := w.heap.alloc .collection "" }
  match refs with
  | none => (w1, .error .typeError)
  | some rs => ({ w1 with docs := w.docs ++ [⟨w.heap.next, path, rs⟩] }, .ok ())

/-- Argument `suffix_filters`. -/
inductive SuffixArg where
  | str (s : String)
  | list (l : List String)

/-- `create_document_mapping` (workspace.py 179-186, 42-54): a plain string ends in an
AttributeError (neither a class nor a tuple has `append`). -/
def createMapping (w : DocWs) (ref : String) (accepts : Nat → Bool) : SuffixArg →
    DocWs × Except PyErr Unit
  | .str _ => (w, .error .attributeError)
  | .list l => ({ w with mappings := w.mappings ++ [⟨ref, accepts, l⟩] }, .ok ())

/-- `os.path.join(self.document_root, file_path)` if a root is set (workspace.py 240-241, 272-275). -/
def outPath (w : DocWs) (p : String) : String :=
  match w.docRoot with
  | none => p
  | some r => String.ofList (pjoin r.toList p.toList)

/-- The loop over package references (workspace.py 234-239). -/
def addPackages (h : Heap) (root doc : Nat) : List String → Heap × Except PyErr Unit
  | [] => (h, .ok ())
  | r :: rs =>
    match find h root r with
    | .error e => (h, .error e)
    | .ok none => addPackages h root doc rs
    | .ok (some p) =>
      if (h.obj p).cls = .package then
        match collectionAppend h doc p with
        | (h1, .ok ()) => addPackages h1 root doc rs
        | (h1, .error e) => (h1, .error e)
      else (h, .error .valueError)

/-- `_write_document_from_config` (workspace.py 226-242). -/
def writeConfig (w : DocWs) (d : DocConfig) : DocWs × Except PyErr Unit :=
  match addPackages w.heap w.root d.document d.packageRefs with
  | (h, .error e) => ({ w with heap := h }, .error e)
  | (h, .ok ()) =>
    ({ w with heap := h, out := w.out ++ [⟨outPath w d.filePath, d.document, h⟩] }, .ok ())

/-- `x <= y` on Python strings: by code points. -/
def strLe (a b : String) : Bool := decide (¬ b < a)

/-- insertion into a list sorted by name -/
def insertBy (h : Heap) (x : Nat) : List Nat → List Nat
  | [] => [x]
  | y :: ys => if strLe (h.obj x).name (h.obj y).name then x :: y :: ys else y :: insertBy h x ys

/-- `sorted(element_list, key=lambda x: x.name)` (workspace.py 270); stable. -/
def sortByName (h : Heap) : List Nat → List Nat
  | [] => []
  | x :: xs => insertBy h x (sortByName h xs)

/-- `for element in ...: new_package.append(element)` -/
def appendAll (h : Heap) (c : Nat) : List Nat → Heap × Except PyErr Unit
  | [] => (h, .ok ())
  | x :: xs =>
    match packageAppend h c x with
    | (h1, .error e) => (h1, .error e)
    | (h1, .ok ()) => appendAll h1 c xs

/-- `element_map[element.name] = element` over a list (workspace.py 254-258). -/
def nameDict (h : Heap) (l : List Nat) : Dict Nat :=
  l.foldl (fun m x => dictSet m (h.obj x).name x) []

/-- The extra elements (workspace.py 261-267). -/
def extras (h : Heap) (elementMap : Dict Nat) (m : Nat) (suffixes : List String) : List Nat :=
  suffixes.filterMap fun s =>
    if s.toList.length > 0 then dictGet elementMap ((h.obj m).name ++ s) else none

/-- `str(package.ref())`; `package.ref()` on a parent cycle never returns. -/
def refText (h : Heap) (p : Nat) : Except PyErr String :=
  match calcRef (h.next + 2) h p with
  | none => .error .recursionError
  | some none => .ok "None"
  | some (some s) => .ok s

/-- One round of the loop over matched elements (workspace.py 259-276). -/
def writeMatched (w : DocWs) (pkg : Nat) (elementMap : Dict Nat) (suffixes : List String) (m : Nat) :
    DocWs × Except PyErr Unit :=
  let list := m :: extras w.heap elementMap m suffixes
  let doc := w.heap.next
  let h1 := w.heap.alloc .collection ""
  match refText h1 pkg with
  | .error e => ({ w with heap := h1 }, .error e)
  | .ok ref =>
    match collectionMake1 h1 doc ref.toList with
    | (h2, .error e) => ({ w with heap := h2 }, .error e)
    | (h2, .ok np) =>
      match appendAll h2 np (sortByName h2 list) with
      | (h3, .error e) => ({ w with heap := h3 }, .error e)
      | (h3, .ok ()) =>
        ({ w with heap := h3, out := w.out ++ [⟨outPath w ((h3.obj m).name ++ ".arxml"), doc, h3⟩] },
          .ok ())

def writeAllMatched (w : DocWs) (pkg : Nat) (elementMap : Dict Nat) (suffixes : List String) :
    List Nat → DocWs × Except PyErr Unit
  | [] => (w, .ok ())
  | m :: ms =>
    match writeMatched w pkg elementMap suffixes m with
    | (w1, .error e) => (w1, .error e)
    | (w1, .ok ()) => writeAllMatched w1 pkg elementMap suffixes ms

/-- `_gen_package_to_document_mapping` (workspace.py 244-276). -/
def writeMapping (w : DocWs) (mp : Mapping) : DocWs × Except PyErr Unit :=
  match find w.heap w.root mp.packageRef with
  | .error e => (w, .error e)
  | .ok none => (w, .ok ())
  | .ok (some p) =>
    if (w.heap.obj p).cls = .package then
      let es := (w.heap.obj p).elements
      writeAllMatched w p (nameDict w.heap es) mp.suffixes
        ((nameDict w.heap (es.filter mp.accepts)).map (·.2))
    else (w, .error .valueError)

def writeConfigs (w : DocWs) : List DocConfig → DocWs × Except PyErr Unit
  | [] => (w, .ok ())
  | d :: ds =>
    match writeConfig w d with
    | (w1, .error e) => (w1, .error e)
    | (w1, .ok ()) => writeConfigs w1 ds

def writeMappings (w : DocWs) : List Mapping → DocWs × Except PyErr Unit
  | [] => (w, .ok ())
  | m :: ms =>
    match writeMapping w m with
    | (w1, .error e) => (w1, .error e)
    | (w1, .ok ()) => writeMappings w1 ms

/-- `write_documents` (workspace.py 194-202). -/
def writeDocuments (w : DocWs) : DocWs × Except PyErr Unit :=
  match writeConfigs w w.docs with
  | (w1, .error e) => (w1, .error e)
  | (w1, .ok ()) => writeMappings w1 w1.mappings

/-- The calls of this part of the API. -/
inductive DocOp where
  | pkg (o : Op)
  | createDocument (path : String) (refs : Option (List String))
  | createMapping (ref : String) (accepts : Nat → Bool) (suffixes : SuffixArg)
  | setRoot (dir : String)
  | write

def dstep (w : DocWs) : DocOp → DocWs
  | .pkg o => { w with heap := step w.heap o }
  | .createDocument p rs => (createDocument w p rs).1
  | .createMapping r a s => (createMapping w r a s).1
  | .setRoot d => { w with docRoot := some d }
  | .write => (writeDocuments w).1

def drun (w : DocWs) (ops : List DocOp) : DocWs := ops.foldl dstep w

end Verif.Work
