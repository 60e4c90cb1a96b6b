import Verif.Codec.PortSpec
import Verif.Codec.ConnectSpec
/-
What communication specifications made for an interface of a document are about (C72).
-/
namespace Verif.Codec.PortSpecSpec
open Verif.Codec Verif.Codec.Spec Verif.Codec.Find Verif.Codec.ConnectSpec Verif.Pkg.Spec Verif.Swc
variable {α : Type}

/-- The data element is queued: that is the implementation policy of the first variant of its properties. -/
def Queued (x : Val Cls) : Prop :=
  ∃ gs v, field x "sw_data_def_props" = some (.obj .SwDataDefProps gs) ∧
    (members (.obj .SwDataDefProps gs) "variants").head? = some v ∧
    field v "impl_policy" = some (.enum ⟨"SwImplPolicy", "QUEUED"⟩)

/-- The classes of interfaces with several parts, and the attribute with the parts. -/
inductive Parts : Cls → String → Prop
  | data : Parts .SenderReceiverInterface "data_elements"
  | operations : Parts .ClientServerInterface "operations"

/-- The class of the specification for a part of an interface. -/
inductive KindOf : Side → Cls → Val Cls → SpecKind → Prop
  | sendQueued {x : Val Cls} : Queued x → KindOf .provide .SenderReceiverInterface x .queuedSender
  | send {x : Val Cls} : ¬ Queued x → KindOf .provide .SenderReceiverInterface x .nonqueuedSender
  | receiveQueued {x : Val Cls} : Queued x → KindOf .require .SenderReceiverInterface x .queuedReceiver
  | receive {x : Val Cls} : ¬ Queued x → KindOf .require .SenderReceiverInterface x .nonqueuedReceiver
  | server {x : Val Cls} : KindOf .provide .ClientServerInterface x .server
  | client {x : Val Cls} : KindOf .require .ClientServerInterface x .client

/-- The specification for the part `x` of an interface of class `c` at the way: its class, the reference to the
part, and the arguments. -/
def IsFor (side : Side) (c : Cls) (way : List String) (x : Val Cls) (args : Args α) (s : ComSpec α) : Prop :=
  KindOf side c x s.kind ∧ s.args = args ∧ ∃ n, elemName x = some n ∧ s.target = some (absRef (way ++ [n]))

/-- The specifications returned, one or several. -/
def all : Made α → List (ComSpec α)
  | .one s => [s]
  | .many l => l

/-- The interface has a mode group. -/
def ModeInterface (v : Val Cls) : Prop := classOf v = some .ModeSwitchInterface ∧ (field v "mode_group").isSome = true

end Verif.Codec.PortSpecSpec
