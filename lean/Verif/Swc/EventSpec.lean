import Verif.Swc.Event
/-
What an event should refer to (C55).
-/
namespace Verif.Swc.EventSpec
open Verif.Py Verif.Ref Verif.Swc
open Verif.Names (Name)

/-- The first entry of a list with some property. -/
def First {α : Type} (l : List α) (P : α → Prop) (x : α) : Prop :=
  ∃ pre post, l = pre ++ x :: post ∧ P x ∧ ∀ y ∈ pre, ¬ P y

/-- The text is `<port>` (no element) or `<port>/<element>`. -/
inductive Means : List Char → List Char → List Char → Prop
  | port {p : List Char} : p ≠ [] → '/' ∉ p → Means p p []
  | both {p e : List Char} : p ≠ [] → '/' ∉ p → '/' ∉ e → Means (p ++ '/' :: e) p e

/-- The entry named, or the only one if none is named. -/
def Chosen (l : List Elem) (name : List Char) (e : Elem) : Prop :=
  (name = [] ∧ l = [e]) ∨ (name ≠ [] ∧ First l (fun x => x.name.toList = name) e)

/-- The port of that name which requires something (R or PR). -/
def Required (c : EvComp) (name : List Char) (p : EvPort) : Prop :=
  First c.ports (fun x => x.kind ≠ .p ∧ x.name.toList = name) p

/-- The port of that name which provides something (P or PR). -/
def Provided (c : EvComp) (name : List Char) (p : EvPort) : Prop :=
  First c.ports (fun x => x.kind ≠ .r ∧ x.name.toList = name) p

/-- `<port>/<mode>`: a required port with a mode switch interface and a mode of the type of its
group; the references to port, group and mode. -/
inductive Mode (c : EvComp) : List Char → String × Option String × String → Prop
  | mk {pn mn : List Char} {p : EvPort} {g : ModeProto} {items : ModeItems} {m : Elem} :
      pn ≠ [] → '/' ∉ pn → '/' ∉ mn → Required c pn p → p.iface = .ok (.modeSwitch (some g)) →
      g.type = .ok items → First items.modes (fun x => x.name.toList = mn) m →
      Mode c (pn ++ '/' :: mn) (p.ref, g.ref, m.ref)

/-- What the event created on a request is about: its class, the setting with the prefix of its
name, the names that follow the runnable in its name, and what it refers to. -/
inductive Wants (swc : Option EvComp) : Request → EventKind → String → List String → EvTarget → Prop
  | background : Wants swc .background .background "background_event_prefix" [] .nothing
  | init : Wants swc .init .init "init_event_prefix" [] .nothing
  | timing {period offset : Option Verif.Num.PyNum} :
      Wants swc (.timing period offset) .timing "timing_event_prefix" []
        (.timing (asFloat period) (asFloat offset))
  | dataReceiveError {text : String} {c : EvComp} {pn en : List Char} {p : EvPort} {l : List Elem}
      {e : Elem} : swc = some c → c.root ≠ none → Means text.toList pn en → Required c pn p →
      p.iface = .ok (.senderReceiver l) → Chosen l en e →
      Wants swc (.dataReceiveError text) .dataReceiveError "data_receive_error_event_prefix"
        [p.name, e.name] (.data p.ref e.ref)
  | dataReceived {text : String} {c : EvComp} {pn en : List Char} {p : EvPort} {l : List Elem}
      {e : Elem} : swc = some c → c.root ≠ none → Means text.toList pn en → Required c pn p →
      p.iface = .ok (.senderReceiver l) → Chosen l en e →
      Wants swc (.dataReceived text) .dataReceived "data_receive_event_prefix"
        [p.name, e.name] (.data p.ref e.ref)
  | operationInvoked {text : String} {c : EvComp} {pn en : List Char} {p : EvPort} {l : List Elem}
      {e : Elem} : swc = some c → c.root ≠ none → Means text.toList pn en → Provided c pn p →
      p.iface = .ok (.clientServer l) → Chosen l en e →
      Wants swc (.operationInvoked text) .operationInvoked "operation_invoked_event_prefix"
        [p.name, e.name] (.operation p.ref e.ref)
  | modeManagerError {port : String} {c : EvComp} {p : EvPort} {g : ModeProto} :
      swc = some c → c.root ≠ none → Provided c port.toList p →
      p.iface = .ok (.modeSwitch (some g)) →
      Wants swc (.modeManagerError port) .modeManagerError "swc_mode_manager_error_event_prefix"
        [p.name, g.name] (.modeGroup p.ref g.ref)
  | mode {text : String} {a : Option String} {c : EvComp} {m : String × Option String × String} :
      swc = some c → c.root ≠ none → Mode c text.toList m →
      Wants swc (.modeSwitch (.text text) a) .modeSwitch "swc_mode_switch_event_prefix" []
        (.modes a [m])
  | transition {text text' : String} {a : Option String} {c : EvComp}
      {m m' : String × Option String × String} :
      swc = some c → c.root ≠ none → Mode c text.toList m → Mode c text'.toList m' →
      Wants swc (.modeSwitch (.list [some text, some text']) a) .modeSwitch
        "swc_mode_switch_event_prefix" [] (.modes a [m, m'])

/-- The name of the event before it is made unique: the name given, or prefix, runnable and the
names of what it is about, joined by underscores. -/
def BaseName (swc : Option EvComp) (given : Option Name) (key run : String) (parts : List String)
    (base : Name) : Prop :=
  given = some base ∨
  (given = none ∧ ∃ c s p, swc = some c ∧ c.root = some (some s) ∧ s key = some (some p) ∧ p ≠ "" ∧
    base = (String.intercalate "_" (p :: run :: parts)).toList)

/-- The names an event may get on a request, before they are made unique (a mode switch event has
one even if its modes do not exist). -/
inductive NameOf (swc : Option EvComp) (given : Option Name) (run : String) : Request → Name → Prop
  | wants {req : Request} {kind : EventKind} {key : String} {parts : List String} {t : EvTarget}
      {base : Name} : Wants swc req kind key parts t → BaseName swc given key run parts base →
      NameOf swc given run req base
  | mode {arg : ModeArg} {a : Option String} {base : Name} :
      BaseName swc given "swc_mode_switch_event_prefix" run [] base →
      NameOf swc given run (.modeSwitch arg a) base

/-- The texts of the request have no further parts. -/
def OneSlash : Request → Prop
  | .dataReceiveError t | .dataReceived t | .operationInvoked t => t.toList.count '/' ≤ 1
  | _ => True

/-- All but the name. -/
def Same (e e' : Event) : Prop := e.kind = e'.kind ∧ e.start = e'.start ∧ e.target = e'.target

end Verif.Swc.EventSpec
