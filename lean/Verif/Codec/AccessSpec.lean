import Verif.Codec.Access
import Verif.Codec.EventSpec
import Verif.Props.SwcAccess
/-
What access points made in a document refer to (C73).
-/
namespace Verif.Codec.AccessSpec
open Verif.Codec Verif.Codec.Spec Verif.Codec.Find Verif.Codec.ConnectSpec Verif.Codec.EventSpec
open Verif.Pkg.Spec Verif.Swc
open Verif.Codec.Event (Known)
open Verif.Props.SwcAccess (Spells Word)

/-- The parts of an interface, by its class. -/
inductive Parts : Cls → Val Cls → List (Val Cls) → Prop
  | data {t : Val Cls} : Parts .SenderReceiverInterface t (members t "data_elements")
  | nvData {t : Val Cls} : Parts .NvDataInterface t (members t "data_elements")
  | parameters {t : Val Cls} : Parts .ParameterInterface t (members t "parameters")
  | operations {t : Val Cls} : Parts .ClientServerInterface t (members t "operations")
  | group {t g : Val Cls} : field t "mode_group" = some g → Parts .ModeSwitchInterface t [g]

/-- The part of the name, or the only one if none is named. -/
def Means (l : List (Val Cls)) (n : List Char) (x : Val Cls) : Prop :=
  (n = [] ∧ l = [x]) ∨ (n ≠ [] ∧ x ∈ l ∧ Called n x)

/-- Interfaces with data. -/
def DataInterface (c : Cls) : Prop := c = .SenderReceiverInterface ∨ c = .NvDataInterface

/-- The kinds of points there are for a class of ports and a class of interfaces. -/
inductive Suits : Cls → Cls → Slot → Prop
  | read {c : Cls} : DataInterface c → Suits .RequirePortPrototype c .dataRead
  | value {c : Cls} : DataInterface c → Suits .RequirePortPrototype c .receiveByValue
  | argument {c : Cls} : DataInterface c → Suits .RequirePortPrototype c .receiveByArgument
  | write {c : Cls} : DataInterface c → Suits .ProvidePortPrototype c .dataWrite
  | send {c : Cls} : DataInterface c → Suits .ProvidePortPrototype c .dataSend
  | access {p : Cls} : p ≠ .PRPortPrototype → Suits p .ModeSwitchInterface .modeAccess
  | switch : Suits .ProvidePortPrototype .ModeSwitchInterface .modeSwitch
  | parameter {p : Cls} : Suits p .ParameterInterface .parameter
  | async {p : Cls} : p ≠ .ProvidePortPrototype → Suits p .ClientServerInterface .asyncCall
  | sync {p : Cls} : p ≠ .ProvidePortPrototype → Suits p .ClientServerInterface .syncCall

/-- The point is what the text asks for: it refers to the port of the component `v` at the way that the text names,
and to the part the text means of the interface to which the port refers.  (The group of a mode switch interface has
a reference if it knows the interface.) -/
inductive Asked (ps : List Pkg) (K : Known) (way : List String) (v : Val Cls) (text : String) (pt : Point) : Prop
  | mk {w : Option Word} {pn en : List Char} {x t e : Val Cls} {cp c : Cls}
      {wayI : List String} {l : List (Val Cls)} {n : String} :
      Spells text.toList w pn en → x ∈ members v "ports" → Called pn x → classOf x = some cp →
      Leads ps x "port_interface_ref" c wayI t → Parts c t l → Means l en e → Suits cp c pt.slot →
      pt.port = absRef (way ++ [String.ofList pn]) → elemName e = some n →
      (pt.elem = some (absRef (wayI ++ [n])) ∨
        (pt.elem = none ∧ c = .ModeSwitchInterface ∧ K.group wayI = false)) →
      Asked ps K way v text pt

/-- The documented meanings of the prefixes: class of the port, class of the interface, prefix, kind of point, and the
setting with the beginning of its name. -/
inductive Documented : Cls → Cls → Option Word → Slot → String → Prop
  | argument {c : Cls} {w : Option Word} : DataInterface c → w = none ∨ w = some .argument →
      Documented .RequirePortPrototype c w .receiveByArgument "data_receive_point_prefix"
  | value {c : Cls} : DataInterface c →
      Documented .RequirePortPrototype c (some .value) .receiveByValue "data_receive_point_prefix"
  | read {c : Cls} : DataInterface c →
      Documented .RequirePortPrototype c (some .read) .dataRead "data_read_access_prefix"
  | write {c : Cls} : DataInterface c →
      Documented .ProvidePortPrototype c (some .write) .dataWrite "data_write_access_prefix"
  | send {c : Cls} {w : Option Word} : DataInterface c → w = none ∨ w = some .send →
      Documented .ProvidePortPrototype c w .dataSend "data_send_point_prefix"
  | async : Documented .RequirePortPrototype .ClientServerInterface (some .async) .asyncCall "server_call_point_prefix"
  | sync {w : Option Word} : w = none ∨ w = some .sync →
      Documented .RequirePortPrototype .ClientServerInterface w .syncCall "server_call_point_prefix"
  | access {p : Cls} : p = .RequirePortPrototype ∨ p = .ProvidePortPrototype →
      Documented p .ModeSwitchInterface (some .access) .modeAccess "mode_access_point_prefix"
  | switch : Documented .ProvidePortPrototype .ModeSwitchInterface (some .switch) .modeSwitch "mode_switch_point_prefix"

/-- The point, without the reference to a mode group. -/
def withoutGroup (pt : Point) : Point :=
  match pt.slot with
  | .modeAccess | .modeSwitch => { pt with elem := none }
  | _ => pt

end Verif.Codec.AccessSpec
