import Verif.Pkg.Model
/-
The package map of a workspace: src/autosar/xml/workspace.py 81-89, 120-159.
-/
namespace Verif.Work
open Verif.Py Verif.Pkg

/-- The workspace as far as the package map is concerned (workspace.py 81-87): the objects, the
workspace itself, `package_map`. -/
structure MapWs where
  heap : Heap
  root : Nat
  map : Dict Nat

/-- `Workspace()` (workspace.py 81-87). -/
def MapWs.fresh : MapWs := ⟨Heap.empty.alloc .collection "", 0, []⟩

/-- The loop of `create_package_map` (workspace.py 128-129). -/
def fillPackageMap (w : MapWs) : List (String × String) → MapWs × Except PyErr Unit
  | [] => (w, .ok ())
  | (key, ref) :: rest =>
    match collectionMake1 w.heap w.root ref.toList with
    | (h, .error e) => ({ w with heap := h }, .error e)
    | (h, .ok p) => fillPackageMap { w with heap := h, map := dictSet w.map key p } rest

/-- `create_package_map` (workspace.py 120-129): the map is cleared first. -/
def createPackageMap (w : MapWs) (mapping : List (String × String)) : MapWs × Except PyErr Unit :=
  fillPackageMap { w with map := [] } mapping

/-- `get_package` (workspace.py 151-159). -/
def getPackage (w : MapWs) (key : String) : Except PyErr Nat :=
  if w.map.length = 0 then .error .runtimeError
  else
    match dictGet w.map key with
    | none => .error .keyError
    | some p => .ok p

/-- `add_element` (workspace.py 131-139). -/
def addElement (w : MapWs) (key : String) (x : Nat) : MapWs × Except PyErr Unit :=
  if w.map.length = 0 then (w, .error .runtimeError)
  else
    match dictGet w.map key with
    | none => (w, .error .keyError)
    | some p =>
      let r := append w.heap p x
      ({ w with heap := r.1 }, r.2)

/-- `find_element` (workspace.py 141-149). -/
def findElement (w : MapWs) (key : String) (name : String) : Except PyErr (Option Nat) :=
  if w.map.length = 0 then .error .runtimeError
  else
    match dictGet w.map key with
    | none => .error .keyError
    | some p => find w.heap p name

/-- The calls of this part of the API that change anything. -/
inductive MapOp where
  | pkg (o : Op)
  | createMap (mapping : List (String × String))
  | add (key : String) (x : Nat)

/-- Effect of a call, whether it raises or not; objects mentioned must exist. -/
def mstep (w : MapWs) : MapOp → MapWs
  | .pkg o => { w with heap := step w.heap o }
  | .createMap m => (createPackageMap w m).1
  | .add k x => if x < w.heap.next then (addElement w k x).1 else w

/-- A history of calls. -/
def mrun (w : MapWs) (ops : List MapOp) : MapWs := ops.foldl mstep w

end Verif.Work
