import Verif.Codec.History
import Verif.Codec.ConnectSpec
import Verif.Codec.OlderSpec
/-
What documents are assumed to be given, and what may change, in histories of calls (C69).
-/
namespace Verif.Codec.HistorySpec
open Verif.Codec Verif.Codec.Spec Verif.Codec.Find Verif.Codec.FindSpec Verif.Codec.History
open Verif.Codec.ConnectSpec Verif.Codec.Older.Spec Verif.Pkg.Spec

/-- Well-formed elements and packages may be put into packages. -/
def ThingOk : Thing → Prop
  | .element v => ∃ c, isARElement c = true ∧ WellFormed c v
  | .package p => WellFormedPkg p

/-- The exclusive areas of runnables in it are named (for schema versions below 50, see C63). -/
def thingAreas : Thing → Bool
  | .element v => areasNamed v
  | .package p => areasNamedPkg p

/-- A reference, with or without a slash at the beginning, to a place of names that can be written. -/
def IsRef (t : String) : Prop := ∃ way, way ≠ [] ∧ (∀ n ∈ way, GoodName n ∧ plainText n = true) ∧
  (t = absRef way ∨ t = relRef way)

/-- What is given to a call can be written in the schema version. -/
def CallOk (version : Nat) : Call → Prop
  | .add _ x => ThingOk x ∧ (version < 50 → thingAreas x = true)
  | .addRoot p => WellFormedPkg p ∧ (version < 50 → areasNamedPkg p = true)
  | .connect _ _ _ => True
  | .part _ _ x => (∀ c fs, x = .obj c fs → WellFormed c x) ∧ (version < 50 → areasNamed x = true)
  | .make t => IsRef t

/-- What is given to the step suits a document of the schema version: without root attributes, the reader is
for a version on the same side of 50. -/
def StepOk (version : Nat) : Step → Prop
  | .call c => CallOk version c
  | .save skip _ v => skip = true → SameSide v version

/-- The steps without saving and loading. -/
def justCalls (steps : List Step) : List Step :=
  steps.filter fun s => match s with | .call _ => true | .save .. => false

/-- The element, perhaps with more in its lists: the same class, and every attribute is the same or a list to which
something has been added at the end. -/
def Kept (v v' : Val Cls) : Prop :=
  classOf v' = classOf v ∧ ∀ a, field v' a = field v a ∨
    ∃ old new, (field v a = some (.list old) ∨ field v a = none ∧ old = []) ∧ field v' a = some (.list (old ++ new))

end Verif.Codec.HistorySpec
