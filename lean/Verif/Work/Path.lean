import Verif.Py
import Verif.Pkg.Spec
/-
Namespaces and package roles: src/autosar/xml/workspace.py 57-118, with `posixpath.join` and
`posixpath.normpath` of the Python standard library.
-/
namespace Verif.Work
open Verif.Py

/-- `posixpath.join(a, b)` (Python standard library). -/
def pjoin (a b : List Char) : List Char :=
  if startsWithL '/' b then b
  else if a = [] ∨ a.getLast? = some '/' then a ++ b
  else a ++ '/' :: b

/-- One round of the loop in `posixpath.normpath`; `stack` is `new_comps` reversed. -/
def normStep (slashes : Nat) (stack : List (List Char)) (comp : List Char) : List (List Char) :=
  if comp = [] ∨ comp = ['.'] then stack
  else if comp ≠ ['.', '.'] ∨ (slashes = 0 ∧ stack = []) ∨ stack.head? = some ['.', '.'] then
    comp :: stack
  else stack.tail

/-- `initial_slashes` of `posixpath.normpath`: exactly two leading slashes are kept. -/
def initialSlashes : List Char → Nat
  | '/' :: '/' :: '/' :: _ => 1
  | '/' :: '/' :: _ => 2
  | '/' :: _ => 1
  | _ => 0

/-- `posixpath.normpath` (Python standard library). -/
def normpath (path : List Char) : List Char :=
  if path = [] then ['.']
  else
    let n := initialSlashes path
    let comps := ((splitL '/' path).foldl (normStep n) []).reverse
    let s := List.replicate n '/' ++ joinL '/' comps
    if s = [] then ['.'] else s

/-- A key of a namespace's package map: a member of `PackageRole` or a user-defined text. -/
inductive Role where
  | std (name : String)
  | custom (name : String)
deriving DecidableEq, Repr

/-- `str_to_enum_map["PackageRole"]` (enumeration.py 1546-1567). -/
def roleTable : Dict String :=
  [("APPLICATION_DATA_TYPE", "APPLICATION_DATA_TYPE"), ("ApplicationDataType", "APPLICATION_DATA_TYPE"),
   ("BASE_TYPE", "BASE_TYPE"), ("BaseType", "BASE_TYPE"),
   ("COMPONENT_TYPE", "COMPONENT_TYPE"), ("ComponentType", "COMPONENT_TYPE"),
   ("COMPU_METHOD", "COMPU_METHOD"), ("CompuMethod", "COMPU_METHOD"),
   ("DATA_CONSTRAINT", "DATA_CONSTRAINT"), ("DataConstraint", "DATA_CONSTRAINT"),
   ("IMPLEMENTATION_DATA_TYPE", "IMPLEMENTATION_DATA_TYPE"), ("ImplementationDataType", "IMPLEMENTATION_DATA_TYPE"),
   ("MODE_DECLARATION", "MODE_DECLARATION"), ("ModeDeclaration", "MODE_DECLARATION"),
   ("PORT_INTERFACE", "PORT_INTERFACE"), ("PortInterface", "PORT_INTERFACE"),
   ("Unit", "UNIT"), ("UNIT", "UNIT"),
   ("CONSTANT", "CONSTANT"), ("Constant", "CONSTANT")]

/-- `role_name.startswith("!")` and `str_to_package_role` (workspace.py 68-71, enumeration.py
1571-1575). -/
def parseRole (s : String) : Except PyErr Role :=
  match s.toList with
  | '!' :: rest => .ok (.custom (String.ofList rest))
  | _ =>
    match dictGet roleTable s with
    | some m => .ok (.std m)
    | none => .error .keyError

/-- `Namespace` (workspace.py 57-73). -/
structure Namespace where
  name : String
  baseRef : String
  map : List (Role × String)

/-- `self.package_map[role] = path` -/
def roleSet (m : List (Role × String)) (r : Role) (p : String) : List (Role × String) :=
  if m.any (·.1 = r) then m.map fun e => if e.1 = r then (r, p) else e else m ++ [(r, p)]

def roleGet (m : List (Role × String)) (r : Role) : Option String :=
  (m.find? (·.1 = r)).map (·.2)

/-- the loop at workspace.py 67-73 -/
def fillMap (base : String) : List (String × String) → List (Role × String) →
    Except PyErr (List (Role × String))
  | [], m => .ok m
  | (rn, rel) :: rest, m =>
    match parseRole rn with
    | .error e => .error e
    | .ok r => fillMap base rest (roleSet m r (String.ofList (pjoin base.toList rel.toList)))

/-- `Namespace.__init__` (workspace.py 62-73). -/
def makeNamespace (name : String) (packageMap : List (String × String)) (baseRef : Option String) :
    Except PyErr Namespace :=
  let base := baseRef.getD ("/" ++ name)
  match fillMap base packageMap [] with
  | .error e => .error e
  | .ok m => .ok ⟨name, base, m⟩

/-- `Workspace.create_namespace` (workspace.py 91-95). -/
def createNamespace (nss : Dict Namespace) (name : String) (packageMap : List (String × String))
    (baseRef : Option String) : Dict Namespace × Except PyErr Unit :=
  match makeNamespace name packageMap baseRef with
  | .error e => (nss, .error e)
  | .ok ns => (dictSet nss name ns, .ok ())

/-- `Workspace.get_package_ref_by_role` (workspace.py 97-118), for a role of a permitted type. -/
def packageRefByRole (nss : Dict Namespace) (nsName : String) (role : Role) : Except PyErr String :=
  match dictGet nss nsName with
  | none => .error .keyError
  | some ns =>
    match roleGet ns.map role with
    | none => .error .valueError
    | some p => .ok (String.ofList (normpath (pjoin ns.baseRef.toList p.toList)))

end Verif.Work

/-! ### Specification: where a path leads -/
namespace Verif.Work.Spec
open Verif.Py

/-- Names, "." and ".." of a path; empty segments (repeated slashes) mean nothing. -/
inductive Move where
  | stay
  | up
  | into (n : String)

/-- A segment read as a move. -/
inductive Means : List Char → Move → Prop
  | empty : Means [] .stay
  | dot : Means ['.'] .stay
  | dotdot : Means ['.', '.'] .up
  | name (n : List Char) : n ≠ [] → n ≠ ['.'] → n ≠ ['.', '.'] → Means n (.into (String.ofList n))

/-- Walking down a path of segments from a place in the tree (names from the top); above the root
is the root. -/
inductive Walk : List String → List (List Char) → List String → Prop
  | done (l) : Walk l [] l
  | stay (l s ss r) : Means s .stay → Walk l ss r → Walk l (s :: ss) r
  | into (l s ss r n) : Means s (.into n) → Walk (l ++ [n]) ss r → Walk l (s :: ss) r
  | up (l s ss r) : Means s .up → Walk l.dropLast ss r → Walk l (s :: ss) r

/-- The segments of a text. -/
def segments (s : String) : List (List Char) := splitL '/' s.toList

end Verif.Work.Spec
