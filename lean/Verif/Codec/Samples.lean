import Verif.Codec.Roundtrip
/-
Well-formed objects exist: for every class and every attribute covered there is a well-formed
object with the attribute set.
-/
namespace Verif.Codec
open Verif.Py Verif.Enums Verif.Num Verif.Codec.Spec
open Verif.Ref (RefObj refClasses)

/-- First member of an enumeration that has a text. -/
def sampleMember (cls : String) : Option Member :=
  (((dictGet enumMembers cls).getD []).map fun p => (⟨cls, p.1⟩ : Member)).find? enumOk

/-- First destination a reference class accepts. -/
def sampleDest (cls : String) (ds : Option (List String)) : Option String :=
  match dictGet refClasses cls with
  | none => none
  | some rc => rc.accepted.find? fun d => refValOk ⟨cls, "/a/b", d⟩ &&
      match ds with
      | none => true
      | some ds => d ∈ ds

mutual
/-- A value of the type. -/
def sampleS : Nat → STy Cls → Option (Val Cls)
  | 0, _ => none
  | n + 1, a =>
    match a with
    | .str | .strNotInt => some (.str "text")
    | .alignment => some (.str "UNKNOWN")
    | .format => some (.str "%d")
    | .bool => some (.bool true)
    | .int | .nat => some (.num (.int 7))
    | .float | .castFloat | .numFloat => some (.num (.float (.fin false 25 (-1))))
    | .radix => some (.numval ⟨.int 7, .hexadecimal⟩)
    | .enum c | .member c => (sampleMember c).map .enum
    | .limit => (sampleMember "IntervalType").map (.limit (.int 7))
    | .ref c => (sampleDest c none).map fun d => .ref ⟨c, "/a/b", d⟩
    | .refTo c ds => (sampleDest c (some ds)).map fun d => .ref ⟨c, "/a/b", d⟩
    | .cls c => sampleObj n c none
/-- An object with its required attributes and one more. -/
def sampleObj : Nat → Cls → Option (String × STy Cls) → Option (Val Cls)
  | 0, _, _ => none
  | n + 1, c, more =>
    (sampleFields n (covered c) more).map (.obj c)
/-- Its attributes. -/
def sampleFields : Nat → List (Field Cls) → Option (String × STy Cls) →
    Option (List (String × Val Cls))
  | 0, _, _ => none
  | _ + 1, [], _ => some []
  | n + 1, f :: fs, more =>
    match sampleFields n fs more with
    | none => none
    | some rest =>
      let extra := match more with
        | some (k, a) => if k = f.attr then some a else none
        | none => none
      match extra.orElse fun _ => if f.req then f.alts.head? else none with
      | none => some rest
      | some a =>
        match sampleS n a with
        | none => none
        | some v => some ((f.attr, if f.shape = .one then v else .list [v]) :: rest)
end

/-- There is a well-formed object with this attribute set to a value of this type. -/
def canSet (c : Cls) (k : String) (a : STy Cls) : Bool :=
  match sampleObj 60 c (some (k, a)) with
  | some v => decide (WellFormed c v)
  | none => false

/-- Every attribute of every class, with every type it may have, can be set. -/
theorem can_set_all : ∀ n < 186, ((covered (Cls.ofNat n)).all fun f => f.alts.all fun a =>
    canSet (Cls.ofNat n) f.attr a) = true := by
  decide +kernel

end Verif.Codec
