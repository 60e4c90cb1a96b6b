import Verif.Work.Path
import Verif.Pkg.History
/-
Templates: src/autosar/xml/template.py, `Workspace.apply` and its helpers
(src/autosar/xml/workspace.py 161-170, 332-375).
-/
namespace Verif.Work
open Verif.Py Verif.Pkg

/-- What a user-written `create` or `apply` does: a sequence of calls to the package API, then a
result (an object, None or an exception).  Simplification: it does not itself apply templates or
change namespaces. -/
abbrev Script := List Op × Except PyErr (Option Nat)

/-- `ElementTemplate` (template.py 34-76), `GenericTemplate` (19-31), anything else.
`create` gets the package, the dependency elements (in order; the code keys them by reference
text) and the keyword arguments.  `depends=None` is the empty list. -/
inductive Template where
  | element (elementName nsName : String) (role : Role) (depends : List Template)
      (append : Bool) (create : Heap → Nat → List Nat → List String → Script)
  | generic (body : Heap → List String → Script)
  | other

/-- Ghost record of one call of a `create` method. -/
structure Call where
  /-- heap when create is called -/
  before : Heap
  pkg : Nat
  name : String
  deps : List Template
  depObjs : List Nat
  append : Bool
  /-- heap when create is done -/
  after : Heap
  result : Except PyErr (Option Nat)

/-- The workspace as far as templates see it (workspace.py 75-89); `trace` is a ghost. -/
structure Ws where
  heap : Heap
  root : Nat
  nss : Dict Namespace
  trace : List Call

/-- `isinstance(elem, ar_element.ARElement)` -/
def isElement (h : Heap) (o : Nat) : Bool :=
  match (h.obj o).cls with
  | .element _ => true
  | _ => false

/-- `_apply_element_template` after the dependencies are there (workspace.py 349-363). -/
def applyBody (w : Ws) (kw : List String) (name nsName : String) (role : Role)
    (deps : List Template) (app : Bool) (create : Heap → Nat → List Nat → List String → Script)
    (ds : List Nat) : Ws × Except PyErr (Option Nat) :=
  match packageRefByRole w.nss nsName role with
  | .error e => (w, .error e)
  | .ok ref =>
    match collectionMake1 w.heap w.root ref.toList with
    | (h2, .error e) => ({ w with heap := h2 }, .error e)
    | (h2, .ok pkg) =>
      if (h2.obj pkg).cls = .package then
        match find h2 pkg name with
        | .error e => ({ w with heap := h2 }, .error e)
        | .ok (some o) => ({ w with heap := h2 }, .ok (some o))
        | .ok none =>
          let s := create h2 pkg ds kw
          let h3 := run h2 s.1
          let w3 := { w with heap := h3, trace := w.trace ++ [⟨h2, pkg, name, deps, ds, app, h3, s.2⟩] }
          match s.2 with
          | .error e => (w3, .error e)
          | .ok none => (w3, .error .typeError)
          | .ok (some o) =>
            if isElement h3 o then
              if app then
                match packageAppend h3 pkg o with
                | (h4, .ok ()) => ({ w3 with heap := h4 }, .ok (some o))
                | (h4, .error e) => ({ w3 with heap := h4 }, .error e)
              else (w3, .ok (some o))
            else (w3, .error .typeError)
      else ({ w with heap := h2 }, .error .typeError)

mutual
/-- `Workspace.apply` (workspace.py 161-170, 332-363). -/
def apply (w : Ws) (kw : List String) : Template → Ws × Except PyErr (Option Nat)
  | .element name nsName role deps app create =>
    match applyDeps w deps with
    | (w1, .error e) => (w1, .error e)
    | (w1, .ok ds) => applyBody w1 kw name nsName role deps app create ds
  | .generic body =>
    let s := body w.heap kw
    ({ w with heap := run w.heap s.1 }, s.2)
  | .other => (w, .error .notImplemented)

/-- `_create_dependencies` (workspace.py 365-375). -/
def applyDeps (w : Ws) : List Template → Ws × Except PyErr (List Nat)
  | [] => (w, .ok [])
  | t :: ts =>
    match apply w [] t with
    | (w1, .error e) => (w1, .error e)
    | (w1, .ok none) => (w1, .error .typeError)
    | (w1, .ok (some o)) =>
      if isElement w1.heap o then
        match applyDeps w1 ts with
        | (w2, .error e) => (w2, .error e)
        | (w2, .ok ds) => (w2, .ok (o :: ds))
      else (w1, .error .typeError)
end

/-- A history in a workspace: applying templates and any other package calls. -/
inductive WsOp where
  | apply (t : Template) (kw : List String)
  | op (o : Op)

def wstep (w : Ws) : WsOp → Ws
  | .apply t kw => (apply w kw t).1
  | .op o => { w with heap := step w.heap o }

def wrun (w : Ws) (ops : List WsOp) : Ws := ops.foldl wstep w

end Verif.Work
