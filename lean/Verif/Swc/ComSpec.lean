import Verif.Swc.Connect
/-
Communication specifications of ports: `make_from_port_interface` of `ProvidePortComSpec` and
`RequirePortComSpec` (src/autosar/xml/element.py 4039-4135, 4350-4452), and `create_p_port`,
`create_r_port`, `create_pr_port` (4927-4961, 4975-5010, 5025-5046).
-/
namespace Verif.Swc
open Verif.Py

/-- A data element or operation of an interface: name, `ref()`, and for data elements `is_queued`
(element.py 2062-2069; not used for operations). -/
structure Item where
  name : String
  ref : Option String
  queued : Bool
deriving DecidableEq, Repr

/-- Port interfaces by class, as distinguished at element.py 4062, 4095, 4116, 4121.
`modeSwitch`: `ref()` of the mode group, if there is a group. -/
inductive Iface where
  | senderReceiver (elems : List Item)
  | clientServer (ops : List Item)
  | modeSwitch (group : Option (Option String))
  | other
deriving DecidableEq, Repr

/-- The com-spec classes made here (element.py 4186, 4216, 4225, 4283, 4533, 4547, 4616, 4636). -/
inductive SpecKind where
  | queuedSender | nonqueuedSender | server | modeSwitchSender
  | queuedReceiver | nonqueuedReceiver | client | modeSwitchReceiver
deriving DecidableEq, Repr

/-- The class the method is called on: `ProvidePortComSpec` (element.py 4034) or
`RequirePortComSpec` (4345). -/
inductive Side where
  | provide | require
deriving DecidableEq, Repr

/-- A keyword argument's value: a `dict` (with text keys) or anything else. -/
inductive Arg (α : Type) where
  | dict (d : List (String × Arg α))
  | other (v : α)

/-- Keyword arguments. -/
abbrev Args (α : Type) := List (String × Arg α)

/-- A com-spec object: class, what it refers to, the arguments it was made from. -/
structure ComSpec (α : Type) where
  kind : SpecKind
  target : Option String
  args : Args α

/-- The exception a com-spec constructor raises for a target and arguments, if any (constructors of
the classes above, with `make_non_queued_sender_com_spec`, element.py 4124-4135, and
`make_non_queued_receiver_com_spec`, 4441-4452).  A parameter of the model: the theorems hold
whatever the constructors accept. -/
abbrev Accepts (α : Type) := SpecKind → Option String → Args α → Option PyErr

variable {α : Type}

/-- A constructor call. -/
def build (acc : Accepts α) (k : SpecKind) (target : Option String) (args : Args α) :
    Except PyErr (ComSpec α) :=
  match acc k target args with
  | some e => .error e
  | none => .ok ⟨k, target, args⟩

/-- The class for a data element (element.py 4067-4070, 4083-4088, 4381-4385, 4399-4404). -/
def elemKind (side : Side) (queued : Bool) : SpecKind :=
  match side, queued with
  | .provide, true => .queuedSender
  | .provide, false => .nonqueuedSender
  | .require, true => .queuedReceiver
  | .require, false => .nonqueuedReceiver

/-- The class for an operation (element.py 4100, 4110, 4416, 4427). -/
def opKind : Side → SpecKind
  | .provide => .server
  | .require => .client

/-- The class for a mode group (element.py 4120, 4437). -/
def modeKind : Side → SpecKind
  | .provide => .modeSwitchSender
  | .require => .modeSwitchReceiver

/-- What a call returns: one object, or a list when the interface has several elements. -/
inductive Made (α : Type) where
  | one (s : ComSpec α)
  | many (l : List (ComSpec α))

/-- The check of the values (element.py 4074-4078, 4389-4393). -/
def allDicts : Args α → Bool
  | [] => true
  | (_, .dict _) :: rest => allDicts rest
  | (_, .other _) :: _ => false

/-- The loop over the elements of the interface (element.py 4079-4089, 4106-4111, 4394-4405,
4422-4428): com-specs and what is left of `unprocessed`.  On the require side the element's
reference is asserted (4398, 4426) before the arguments are expanded; expanding something that is
not a mapping raises TypeError. -/
def specLoop (acc : Accepts α) (side : Side) (kindOf : Item → SpecKind) (kwargs : Args α) :
    List String → List Item → Except PyErr (List (ComSpec α) × List String)
  | todo, [] => .ok ([], todo)
  | todo, d :: ds =>
    if d.name ∈ todo then
      match dictGet kwargs d.name with
      | none => .error .keyError
      | some a =>
        if side = .require ∧ d.ref = none then .error .assertionError
        else
          match a with
          | .other _ => .error .typeError
          | .dict args =>
            match build acc (kindOf d) d.ref args with
            | .error e => .error e
            | .ok s =>
              match specLoop acc side kindOf kwargs (todo.filter (· ≠ d.name)) ds with
              | .error e => .error e
              | .ok (ss, left) => .ok (s :: ss, left)
    else specLoop acc side kindOf kwargs todo ds

/-- The complaint about unknown names: ValueError (element.py 4090-4093, 4112-4114); on the require
side `', '.join(list[unprocessed])` raises TypeError first (4407, 4430). -/
def leftover : Side → PyErr
  | .provide => .valueError
  | .require => .typeError

/-- Several elements (element.py 4072-4094, 4102-4115, 4387-4410, 4418-4432). -/
def makeMany (acc : Accepts α) (side : Side) (kindOf : Item → SpecKind) (kwargs : Args α)
    (items : List Item) : Except PyErr (Made α) :=
  match specLoop acc side kindOf kwargs (kwargs.map (·.1)) items with
  | .error e => .error e
  | .ok (ss, []) => .ok (.many ss)
  | .ok (_, _ :: _) => .error (leftover side)

/-- `make_from_port_interface(port_interface, **kwargs)` (element.py 4039-4122, 4350-4439); `none`
is the interface None.  Keywords that clash with the method's own parameters raise TypeError. -/
def makeFromInterface (acc : Accepts α) (side : Side) (iface : Option Iface) (kwargs : Args α) :
    Except PyErr (Made α) :=
  if "cls" ∈ kwargs.map (·.1) ∨ "port_interface" ∈ kwargs.map (·.1) then .error .typeError
  else match iface with
  | some (.senderReceiver []) => .error .valueError
  | some (.senderReceiver [d]) =>
    if side = .require ∧ d.queued = true ∧ d.ref = none then .error .assertionError
    else (build acc (elemKind side d.queued) d.ref kwargs).map .one
  | some (.senderReceiver (d :: d' :: ds)) =>
    if allDicts kwargs then
      makeMany acc side (fun d => elemKind side d.queued) kwargs (d :: d' :: ds)
    else .error .typeError
  | some (.clientServer []) => .error .valueError
  | some (.clientServer [o]) => (build acc (opKind side) o.ref kwargs).map .one
  | some (.clientServer (o :: o' :: os)) =>
    makeMany acc side (fun _ => opKind side) kwargs (o :: o' :: os)
  | some (.modeSwitch none) => .error .valueError
  | some (.modeSwitch (some none)) => .error .assertionError
  | some (.modeSwitch (some (some r))) => (build acc (modeKind side) (some r) kwargs).map .one
  | some .other => .error .notImplemented
  | none => .error .notImplemented

/-! ### Ports -/

/-- An element of a com-spec list (element.py 4944-4953, 4993-5002): a com-spec of the port's own
side, a tuple, anything else.  Simplification: first elements of pairs are texts. -/
inductive ListElem (α : Type) where
  | spec (s : ComSpec α)
  | pair (name : String) (v : Arg α)
  | badTuple
  | other

/-- The argument `com_spec` of `create_p_port`/`create_r_port` (element.py 4937-4958, 4986-5007):
None, a dict, another iterable, something not iterable such as one com-spec object. -/
inductive SpecArg (α : Type) where
  | none
  | dict (kwargs : Args α)
  | iter (l : List (ListElem α))
  | notIterable

/-- Sorting an iterable into `processed` and `unprocessed` (element.py 4942-4953, 4991-5002). -/
def sortElems (done : List (ComSpec α)) (todo : Args α) : List (ListElem α) →
    Except PyErr (List (ComSpec α) × Args α)
  | [] => .ok (done, todo)
  | .spec s :: rest => sortElems (done ++ [s]) todo rest
  | .pair n v :: rest => sortElems done (dictSet todo n v) rest
  | .badTuple :: _ => .error .notImplemented
  | .other :: _ => .error .typeError

/-- The com-specs given to the port (element.py 4937-4958, 4986-5007).  `list.extend` of one
com-spec object raises TypeError; what is not iterable is replaced by None (4958, 5007). -/
def portSpecs (acc : Accepts α) (side : Side) (iface : Option Iface) : SpecArg α →
    Except PyErr (List (ComSpec α))
  | .none => .ok []
  | .dict kwargs =>
    match makeFromInterface acc side iface kwargs with
    | .error e => .error e
    | .ok (.one s) => .ok [s]
    | .ok (.many l) => .ok l
  | .iter l =>
    match sortElems [] [] l with
    | .error e => .error e
    | .ok (done, []) => .ok done
    | .ok (done, t :: ts) =>
      match makeFromInterface acc side iface (t :: ts) with
      | .error e => .error e
      | .ok (.many l) => .ok (done ++ l)
      | .ok (.one _) => .error .typeError
  | .notIterable => .ok []

/-- A port with its com-specs (element.py 4698-4722, 4744-4772). -/
structure FullPort (α : Type) where
  name : String
  side : Side
  specs : List (ComSpec α)

/-- `create_p_port`, `create_r_port` (element.py 4927-4961, 4975-5010): the component's ports
afterwards, and the outcome.  The interface's own reference is left out; without an interface
`port_interface.ref()` raises AttributeError.  Simplification: the remaining keyword arguments are
valid. -/
def createPort (acc : Accepts α) (side : Side) (ports : List (FullPort α)) (name : String)
    (iface : Option Iface) (arg : SpecArg α) : List (FullPort α) × Except PyErr (FullPort α) :=
  match portSpecs acc side iface arg with
  | .error e => (ports, .error e)
  | .ok specs =>
    if iface.isNone then (ports, .error .attributeError)
    else (ports ++ [⟨name, side, specs⟩], .ok ⟨name, side, specs⟩)

/-- A com-spec argument of `create_pr_port` (element.py 5036-5043): None, a dict, one com-spec of
the argument's own side, a list of com-specs of either side (tagged), anything else. -/
inductive PrArg (α : Type) where
  | none
  | dict (kwargs : Args α)
  | one (s : ComSpec α)
  | list (l : List (Side × ComSpec α))
  | other

/-- The conversion of dicts (element.py 5036-5043). -/
def prConvert (acc : Accepts α) (side : Side) (iface : Option Iface) : PrArg α → Except PyErr (PrArg α)
  | .dict kwargs =>
    match makeFromInterface acc side iface kwargs with
    | .error e => .error e
    | .ok (.one s) => .ok (.one s)
    | .ok (.many l) => .ok (.list (l.map fun s => (side, s)))
  | a => .ok a

/-- Whether an argument is a list (element.py 4816, 4824). -/
def PrArg.isList : PrArg α → Bool
  | .list _ => true
  | _ => false

/-- One half of `PRPortPrototype.__init__` (element.py 4813-4820, 4821-4828): the com-specs
appended, with their side (`append_com_spec`, 4840-4849, sorts by class).  `listOk` is the result
of the `isinstance(required_com_spec, (list, tuple))` that both halves use. -/
def prHalf (side : Side) (listOk : Bool) : PrArg α → Except PyErr (List (Side × ComSpec α))
  | .none => .ok []
  | .one s => .ok [(side, s)]
  | .list l => if listOk then .ok l else .error .typeError
  | .dict _ => .error .typeError
  | .other => .error .typeError

/-- `create_pr_port` up to `append_port` (element.py 5025-5044): the com-specs of the port. -/
def prSpecs (acc : Accepts α) (iface : Option Iface) (prov req : PrArg α) :
    Except PyErr (List (Side × ComSpec α)) :=
  match prConvert acc .provide iface prov with
  | .error e => .error e
  | .ok p =>
    match prConvert acc .require iface req with
    | .error e => .error e
    | .ok r =>
      if iface.isNone then .error .attributeError
      else
        match prHalf .provide r.isList p with
        | .error e => .error e
        | .ok ps =>
          match prHalf .require r.isList r with
          | .error e => .error e
          | .ok rs => .ok (ps ++ rs)

end Verif.Swc
