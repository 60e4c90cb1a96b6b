import Verif.Swc.ComSpec
import Verif.Ref.Model
/-
`RunnableEntity.create_port_access` (src/autosar/xml/element.py 6615-6932).
-/
namespace Verif.Swc
open Verif.Py Verif.Ref

/-! ### Texts -/

/-- `str.upper` as far as the prefixes can tell (element.py 6676).  Besides the ASCII letters only
'ſ' (S), 'ı' (I) and 'ß' (SS) become letters that occur, in that order, in one of the prefixes;
other characters are left alone here, which makes no difference to the comparisons. -/
def upperC (c : Char) : List Char :=
  if c = 'ſ' then ['S'] else if c = 'ı' then ['I'] else if c = 'ß' then ['S', 'S'] else [c.toUpper]

def upperL (t : List Char) : List Char := t.flatMap upperC

/-- The characters `str.lstrip()` removes (Python's `str.isspace`). -/
def isSpaceC (c : Char) : Bool :=
  let n := c.toNat
  (9 ≤ n && n ≤ 13) || (28 ≤ n && n ≤ 32) || n == 0x85 || n == 0xa0 || n == 0x1680 ||
  (0x2000 ≤ n && n ≤ 0x200a) || n == 0x2028 || n == 0x2029 || n == 0x202f || n == 0x205f || n == 0x3000

/-- `str.lstrip()` (element.py 6677) -/
def lstripL (t : List Char) : List Char := t.dropWhile isSpaceC

/-- `PortAccessOptions` (element.py 6413-6422): implicit access, result by value, mode access
(`some true` for SWITCH), asynchronous call. -/
structure Opts where
  implicit : Bool := false
  byValue : Bool := false
  mode : Option Bool := none
  async : Bool := false
deriving DecidableEq, Repr

/-- `_parse_port_access_prefix` (element.py 6688-6711) on fresh options. -/
def parsePrefix (t : List Char) : Except PyErr Opts :=
  if t = "ASYNC".toList then .ok { async := true }
  else if t = "SYNC".toList then .ok {}
  else if t = "READ".toList ∨ t = "WRITE".toList then .ok { implicit := true }
  else if t = "ARGUMENT".toList ∨ t = "ARG".toList then .ok {}
  else if t = "VALUE".toList ∨ t = "VAL".toList then .ok { byValue := true }
  else if t = "SEND".toList then .ok {}
  else if t = "ACCESS".toList then .ok { mode := some false }
  else if t = "SWITCH".toList then .ok { mode := some true }
  else .error .valueError

/-- The text of one access (element.py 6673-6681, 6686): options, port name, element name. -/
def parseAccess (text : List Char) : Except PyErr (Opts × List Char × List Char) :=
  if ':' ∈ text then
    match parsePrefix (upperL (partL ':' text).1) with
    | .error e => .error e
    | .ok o => .ok (o, partL '/' (lstripL (partL ':' text).2))
  else .ok ({}, partL '/' text)

/-! ### Access points -/

/-- A data element, parameter, operation or mode group: name and text of its `ref()`.  It is None for mode groups that
do not know their interface (those given to its constructor, as the reader does, element.py 3863, 3889). -/
structure AccElem where
  name : String
  ref : Option String
deriving DecidableEq, Repr

/-- Port interfaces as distinguished at element.py 6723-6735; `data` is
`SenderReceiverInterface` or `NvDataInterface`. -/
inductive AccIface where
  | data (l : List AccElem)
  | mode (group : Option AccElem)
  | params (l : List AccElem)
  | ops (l : List AccElem)
  | other
deriving DecidableEq, Repr

/-- A port of the component: name, class, text of `ref()`, and the outcome of
`workspace.get_port_interface(port.port_interface_ref)` (element.py 3098-3105, 6685). -/
structure AccPort where
  name : String
  kind : PortKind
  ref : String
  iface : Except PyErr AccIface

/-- The lists of a runnable that `create_port_access` adds to, with the class of point where a list
holds several (element.py 6769, 6776, 6778, 6785, 6791, 6848, 6850, 6888, 6932). -/
inductive Slot where
  | dataRead | receiveByValue | receiveByArgument | dataWrite | dataSend
  | modeAccess | modeSwitch | parameter | asyncCall | syncCall
deriving DecidableEq, Repr

/-- An access point: list, name (`none`: a `ModeAccessPoint` without ident), port and element.
Building the instance references never fails: the classes accept the destinations that `ref()` of
ports, data elements, parameters, operations and mode groups have (base.py 112-134, element.py
5770-5804, 6309-6335, reference.py 380-394, 428-442, 560-583). -/
structure Point where
  slot : Slot
  name : Option String
  port : String
  elem : Option String
deriving DecidableEq, Repr

/-- `access_point_args`: the entry "name" and the exception that the point's constructor raises
for the remaining entries, if any.  Simplification: the code deletes "name" from the caller's
dictionary and may add "operation" to it (element.py 6762, 6822, 6877, 6914, 6924); here every entry
of the list has a dictionary of its own, so a caller sharing one between entries is not covered. -/
structure Extra where
  name : Option String := none
  err : Option PyErr := none
deriving DecidableEq, Repr

/-- The element meant by a name (element.py 6748-6755, 6900-6907): without a name the only one, with
a name the last of that name. -/
def pickElem (l : List AccElem) (n : List Char) : Option AccElem :=
  if n = [] then (match l with | [e] => some e | _ => none)
  else (l.filter fun e => e.name.toList = n).getLast?

/-- `settings.get_value(key)` as a part of a joined name (element.py 3000-3007). -/
def prefixOf (s : Settings) (key : String) : Except PyErr String :=
  match s.getValue key with
  | .error e => .error e
  | .ok (some t) => .ok t
  | .ok none => .error .typeError

/-- The name of a new point: the given one or `'_'.join([prefix, port.name, element.name])`
(e.g. element.py 6759-6762, 6765-6766). -/
def pointName (s : Settings) (key : String) (x : Extra) (p : AccPort) (e : AccElem) : Except PyErr String :=
  match x.name with
  | some n => .ok n
  | none =>
    match prefixOf s key with
    | .error err => .error err
    | .ok t => .ok (t ++ "_" ++ p.name ++ "_" ++ e.name)

/-- Naming and construction of a named point. -/
def makePoint (s : Settings) (key : String) (slot : Slot) (x : Extra) (p : AccPort) (e : AccElem) :
    Except PyErr (Option Point) :=
  match pointName s key x p e with
  | .error err => .error err
  | .ok n =>
    match x.err with
    | some err => .error err
    | none => .ok (some ⟨slot, some n, p.ref, e.ref⟩)

/-- `_create_data_based_port_access` (element.py 6737-6793) -/
def dataAccess (s : Settings) (o : Opts) (x : Extra) (p : AccPort) (l : List AccElem) (n : List Char) :
    Except PyErr (Option Point) :=
  match pickElem l n with
  | none => .error .runtimeError
  | some e =>
    match p.kind with
    | .r =>
      if o.implicit then makePoint s "data_read_access_prefix" .dataRead x p e
      else makePoint s "data_receive_point_prefix"
        (if o.byValue then .receiveByValue else .receiveByArgument) x p e
    | .p =>
      if o.implicit then makePoint s "data_write_access_prefix" .dataWrite x p e
      else makePoint s "data_send_point_prefix" .dataSend x p e
    | .pr => .error .typeError

/-- `_create_mode_based_port_access` (element.py 6795-6850).  A given name is compared with the name
of the group, which fails with AttributeError if there is no group. -/
def modeAccess (s : Settings) (o : Opts) (x : Extra) (p : AccPort) (g : Option AccElem) (n : List Char) :
    Except PyErr (Option Point) :=
  match g with
  | none => if n = [] then .error .runtimeError else .error .attributeError
  | some e =>
    if n = [] ∨ n = e.name.toList then
      match p.kind, o.mode with
      | .pr, _ => .ok none
      | _, none => .ok (some ⟨.modeAccess, none, p.ref, e.ref⟩)
      | _, some false => makePoint s "mode_access_point_prefix" .modeAccess x p e
      | .r, some true => .ok none
      | .p, some true => makePoint s "mode_switch_point_prefix" .modeSwitch x p e
    else .error .runtimeError

/-- `_create_parameter_port_access` (element.py 6852-6888).  Without a name the only parameter is
looked up through a misspelled attribute (6864): AttributeError. -/
def paramAccess (s : Settings) (x : Extra) (p : AccPort) (l : List AccElem) (n : List Char) :
    Except PyErr (Option Point) :=
  if n = [] then (if l.length = 1 then .error .attributeError else .error .runtimeError)
  else
    match pickElem l n with
    | none => .error .runtimeError
    | some e => makePoint s "parameter_access_prefix" .parameter x p e

/-- `_create_client_server_port_access` (element.py 6890-6932): nothing for P ports. -/
def callAccess (s : Settings) (o : Opts) (x : Extra) (p : AccPort) (l : List AccElem) (n : List Char) :
    Except PyErr (Option Point) :=
  match pickElem l n with
  | none => .error .runtimeError
  | some e =>
    match p.kind with
    | .p => .ok none
    | _ => makePoint s "server_call_point_prefix" (if o.async then .asyncCall else .syncCall) x p e

/-- One round of the loop (element.py 6669-6686, 6713-6735): the point to append, if any. -/
def oneAccess (s : Settings) (ports : List AccPort) (text : String) (x : Extra) :
    Except PyErr (Option Point) :=
  match parseAccess text.toList with
  | .error e => .error e
  | .ok (o, pn, en) =>
    match ports.find? fun p => p.name.toList = pn with
    | none => .error .valueError
    | some p =>
      match p.iface with
      | .error e => .error e
      | .ok (.data l) => dataAccess s o x p l en
      | .ok (.mode g) => modeAccess s o x p g en
      | .ok (.params l) => paramAccess s x p l en
      | .ok (.ops l) => callAccess s o x p l en
      | .ok .other => .error .notImplemented

/-- `create_port_access` on a runnable of a component in a workspace with settings (element.py
6668-6686): all points of the runnable afterwards, in order of creation, and the outcome.
Simplification: `append_*` (6957-7101) may also rename points that are already there; that is
modelled in `Verif.Names` (C12) and left out here. -/
def createAccess (s : Settings) (ports : List AccPort) (pts : List Point) :
    List (String × Extra) → List Point × Except PyErr Unit
  | [] => (pts, .ok ())
  | (t, x) :: rest =>
    match oneAccess s ports t x with
    | .error e => (pts, .error e)
    | .ok none => createAccess s ports pts rest
    | .ok (some pt) => createAccess s ports (pts ++ [pt]) rest

end Verif.Swc
