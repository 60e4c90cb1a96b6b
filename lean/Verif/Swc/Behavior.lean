import Verif.Py
/-
Runnables and port options of an internal behaviour
(src/autosar/xml/element.py 7978-8049, 8477-8549).
-/
namespace Verif.Swc
open Verif.Py

/-! ### `create_runnable` -/

/-- An exclusive area of the behaviour: name and `ref()` (None outside of a package)
(element.py 7791-7804). -/
structure Area where
  name : String
  ref : Option String
deriving DecidableEq, Repr

/-- An element of the argument `can_enter_leave`: a string, a reference (`ExclusiveAreaRef` or
`ExclusiveAreaRefConditional`), anything else. -/
inductive CanItem where
  | str (s : String)
  | ref (r : String)
  | other
deriving DecidableEq, Repr

/-- The argument `can_enter_leave`: None, a single object, a list, or another iterable. -/
inductive CanArg where
  | none
  | single (i : CanItem)
  | list (l : List CanItem)
  | iter (l : List CanItem)
deriving DecidableEq, Repr

/-- A runnable: name, symbol and the exclusive areas it can enter and leave. -/
structure Runnable where
  name : String
  symbol : Option String
  areas : List String
deriving DecidableEq, Repr

/-- What the remaining arguments make the constructor of `RunnableEntity` raise, before and after it
looks at `can_enter_leave` (element.py 6003-6040, 6431-6605). -/
structure Others where
  before : Option PyErr := Option.none
  after : Option PyErr := Option.none
deriving DecidableEq, Repr

/-- The strings of an iterable (element.py 8020-8022). -/
def strItems : List CanItem → List String
  | [] => []
  | .str s :: l => s :: strItems l
  | _ :: l => strItems l

/-- The keys of `names` (element.py 8016-8022), as a list that may repeat. -/
def areaNames : CanArg → List String
  | .none => []
  | .single (.str s) => [s]
  | .single _ => []
  | .list l | .iter l => strItems l

/-- What `append_can_enter_leave` is called with (element.py 6020-6025, 8024-8033): `none` is the
`ref()` of an area outside of a package. -/
inductive Entry where
  | ref (r : Option String)
  | item (i : CanItem)
deriving DecidableEq, Repr

/-- The treatment of `can_enter_leave` in `create_runnable` (element.py 8015-8033). -/
def areaEntries (areas : List Area) (arg : CanArg) : Except PyErr (List Entry) :=
  let names := areaNames arg
  if names = [] then
    match arg with
    | .none => .ok []
    | .single i => .ok [.item i]
    | .list l => .ok (l.map .item)
    | .iter _ => .ok [.item .other]
  else if names.all (fun n => areas.any fun a => a.name = n) then
    .ok ((areas.filter fun a => a.name ∈ names).map fun a => .ref a.ref)
  else .error .valueError

/-- `append_can_enter_leave` for each entry (element.py 6051-6060). -/
def appendEntries : List Entry → Except PyErr (List String)
  | [] => .ok []
  | e :: l =>
    match (match e with
      | .ref (some r) => some r
      | .ref .none => .none
      | .item (.ref r) => some r
      | .item (.str s) => some s
      | .item .other => Option.none) with
    | Option.none => .error .typeError
    | some r =>
      match appendEntries l with
      | .error err => .error err
      | .ok rs => .ok (r :: rs)

/-- `create_runnable` (element.py 7989-8049): the runnables of the behaviour afterwards and the
outcome. -/
def createRunnable (areas : List Area) (rs : List Runnable) (name : String) (symbol : Option String)
    (arg : CanArg) (o : Others) : List Runnable × Except PyErr Runnable :=
  let symbol := if symbol = some "" then some name else symbol
  match areaEntries areas arg with
  | .error e => (rs, .error e)
  | .ok entries =>
    match o.before with
    | some e => (rs, .error e)
    | Option.none =>
      match appendEntries entries with
      | .error e => (rs, .error e)
      | .ok refs =>
        match o.after with
        | some e => (rs, .error e)
        | Option.none =>
          let r : Runnable := ⟨name, symbol, refs⟩
          (rs ++ [r], .ok r)

/-! ### `create_port_api_options` -/

/-- A port of the component: name and `ref()`. -/
structure ApiPort where
  name : String
  ref : Option String
deriving DecidableEq, Repr

/-- The argument `port_name`: a string, an iterable of hashable keys (`none`: a key that is no
string), or something else; an iterable with an unhashable element counts as something else, since
both raise TypeError before anything happens. -/
inductive NameArg where
  | str (s : String)
  | iter (l : List (Option String))
  | other
deriving DecidableEq, Repr

/-- A `PortApiOption`: reference of the port and the remaining arguments. -/
structure ApiOption (α : Type) where
  port : String
  opts : α
deriving DecidableEq, Repr

/-- Insertion by key, after elements with the same key: `sorted` is stable. -/
def insertBy (key : ApiPort → String) (p : ApiPort) : List ApiPort → List ApiPort
  | [] => [p]
  | q :: l => if key p < key q then p :: q :: l else q :: insertBy key p l

/-- `sorted(swc.ports, key=...)` (element.py 8511); `lower` stands for `str.lower`. -/
def sortPorts (lower : String → String) (ports : List ApiPort) : List ApiPort :=
  ports.foldl (fun acc p => insertBy (fun q => lower q.name) p acc) []

/-- The key of `append_port_api_option`: the text after the last '/' (element.py 7984-7985). -/
def lastSegment (r : String) : String := String.ofList ((splitL '/' r.toList).getLastD [])

/-- The loop over the sorted ports (element.py 8511-8521) with `_create_port_api_option_internal`
(8526-8549) and `append_port_api_option` (7978-7987).  `bad` is what the constructor of
`PortApiOption` raises for the remaining arguments (7752-7770). -/
def optionLoop {α : Type} (want : String → Bool) (o : α) (bad : Option PyErr) (d : Dict (ApiOption α)) :
    List ApiPort → Dict (ApiOption α) × Except PyErr Unit
  | [] => (d, .ok ())
  | p :: l =>
    if want p.name then
      match p.ref with
      | Option.none => (d, .error .valueError)
      | some r =>
        match bad with
        | some e => (d, .error e)
        | Option.none => optionLoop want o bad (dictSet d (lastSegment r) ⟨r, o⟩) l
    else optionLoop want o bad d l

/-- The keys of `ports_to_process` (element.py 8498-8509). -/
def wantedPorts (ports : List ApiPort) : NameArg → Option (List (Option String))
  | .str s => if s = "*" then some (ports.map fun p => some p.name) else some [some s]
  | .iter l => some l
  | .other => Option.none

/-- `create_port_api_options` (element.py 8477-8524) on a behaviour that belongs to a component: the
options afterwards and the outcome. -/
def createPortOptions {α : Type} (lower : String → String) (ports : List ApiPort)
    (d : Dict (ApiOption α)) (arg : NameArg) (o : α) (bad : Option PyErr) :
    Dict (ApiOption α) × Except PyErr Unit :=
  match wantedPorts ports arg with
  | Option.none => (d, .error .typeError)
  | some names =>
    if names = [] then (d, .ok ())
    else
      match optionLoop (fun n => some n ∈ names) o bad d (sortPorts lower ports) with
      | (d, .error e) => (d, .error e)
      | (d, .ok ()) =>
        if names.all (fun n => ports.any fun p => some p.name = n) then (d, .ok ())
        else (d, .error .valueError)

end Verif.Swc
