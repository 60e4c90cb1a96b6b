import Verif.Codec.Select
/-
What iterations are to yield (C70).
-/
namespace Verif.Codec.SelectSpec
open Verif.Py Verif.Codec Verif.Codec.Spec Verif.Codec.Select

/-- The items that are asked for. -/
def wanted : Sel → Val Cls → Bool
  | .names ns, v => ns.contains (elemName v)
  | .regex m, v => (elemName v).any m
  | .wrong _, _ => false
  | .kind c, v => classOf v == some c

/-- The items that iteration number `k` has yielded. -/
def yielded (k : Nat) (log : List (Nat × Answer)) : List (Val Cls) :=
  log.filterMap fun p => match p with
    | (j, .item v) => if j = k then some v else none
    | _ => none

/-- Iteration number `k` has stopped, or raised an exception. -/
def ended (k : Nat) (log : List (Nat × Answer)) : Bool :=
  log.any fun p => match p with
    | (_, .item _) => false
    | (j, _) => j == k

/-- The iterations started, in order. -/
def starts {A : Type} (steps : List (Step A)) : List Sel :=
  steps.filterMap fun s => match s with | .start s => some s | _ => none

/-- The calls. -/
def acts {A : Type} (steps : List (Step A)) : List A :=
  steps.filterMap fun s => match s with | .act a => some a | _ => none

/-- The iteration fails on the list: the pattern is none, or a name that is to be matched is missing. -/
def Fails (s : Sel) (l : List (Val Cls)) (e : PyErr) : Prop :=
  s = .wrong e ∨ e = .typeError ∧ (∃ m, s = .regex m) ∧ ∃ v ∈ l, elemName v = none

/-- Calls on good objects only add items at the end of the list. -/
def Grows {S A : Type} (K : Kind S A) (good : S → Prop) : Prop :=
  ∀ a s, good s → good (K.act a s) ∧ K.items s <+: K.items (K.act a s)

end Verif.Codec.SelectSpec
