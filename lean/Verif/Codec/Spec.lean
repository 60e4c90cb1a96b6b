import Verif.Codec.Dispatch
import Verif.Codec.Text
/-
What it means that element objects survive being written and read.
-/
namespace Verif.Codec.Spec
open Verif.Num

variable {C : Type}

/-- The same number, where a float without fractional part may have become an int. -/
inductive SameNum : PyNum → PyNum → Prop
  | same (n : PyNum) : SameNum n n
  | zero (neg : Bool) (e : Int) : SameNum (.float (.fin neg 0 e)) (.int 0)
  | whole (neg : Bool) (c k : Nat) :
      SameNum (.float (.fin neg c k)) (.int (if neg then -(c * 10 ^ k : Int) else (c * 10 ^ k : Int)))

/-- The list without all but its first element. -/
def onlyFirst : Val C → Val C
  | .list (v :: _) => .list [v]
  | v => v

mutual
/-- The object without the attributes `lost` and without all but the first element of the
attributes `first`, at every depth. -/
def kept (lost first : C → List String) : Val C → Val C
  | .list vs => .list (keptList lost first vs)
  | .obj c fs => .obj c (keptFields lost first c fs)
  | v => v
def keptList (lost first : C → List String) : List (Val C) → List (Val C)
  | [] => []
  | v :: vs => kept lost first v :: keptList lost first vs
def keptFields (lost first : C → List String) (c : C) :
    List (String × Val C) → List (String × Val C)
  | [] => []
  | (k, v) :: rest =>
    if k ∈ lost c then keptFields lost first c rest
    else (k, if k ∈ first c then onlyFirst (kept lost first v) else kept lost first v) ::
      keptFields lost first c rest
end

/-- The lists of which only the first element comes back. -/
def firstOnly : Cls → List String
  | .SwDataDefPropsConditional => ["annotations"]
  | _ => []

/-- What is left of an object: everything but the attributes listed in `lossy` and all annotations
but the first. -/
def remains (v : Val Cls) : Val Cls := kept lossy firstOnly v

mutual
/-- The same object: same class, same attributes, same values at every depth, where floats without
fractional part may have become ints. -/
inductive Same : Val C → Val C → Prop
  | same (v : Val C) : Same v v
  | num {n n' : PyNum} : SameNum n n' → Same (.num n) (.num n')
  | limit {n n' : PyNum} (m) : SameNum n n' → Same (.limit n m) (.limit n' m)
  | list {vs vs' : List (Val C)} : SameList vs vs' → Same (.list vs) (.list vs')
  | obj (c : C) {fs fs' : List (String × Val C)} : SameFields fs fs' → Same (.obj c fs) (.obj c fs')
inductive SameList : List (Val C) → List (Val C) → Prop
  | nil : SameList [] []
  | cons {v v' : Val C} {vs vs' : List (Val C)} :
      Same v v' → SameList vs vs' → SameList (v :: vs) (v' :: vs')
inductive SameFields : List (String × Val C) → List (String × Val C) → Prop
  | nil : SameFields [] []
  | cons (k : String) {v v' : Val C} {fs fs' : List (String × Val C)} :
      Same v v' → SameFields fs fs' → SameFields ((k, v) :: fs) ((k, v') :: fs')
end

/-- No float without fractional part. -/
def fractional : PyNum → Bool
  | .float (.fin _ c e) => c ≠ 0 && e < 0
  | _ => true

mutual
/-- No number in the object is a float without fractional part. -/
def noWhole : Val C → Bool
  | .num n => fractional n
  | .limit n _ => fractional n
  | .list vs => noWholeList vs
  | .obj _ fs => noWholeFields fs
  | _ => true
def noWholeList : List (Val C) → Bool
  | [] => true
  | v :: vs => noWhole v && noWholeList vs
def noWholeFields : List (String × Val C) → Bool
  | [] => true
  | (_, v) :: rest => noWhole v && noWholeFields rest
end

/-- The attributes that become XML attributes. -/
def xmlAttrs : List String :=
  ["allow_break", "color", "help_entry", "semantic_information", "tex_render", "type", "uuid", "view"]

/-- A well-formed object of class `c`, in the values covered (`covered`): every attribute has a
value of its type, references have a destination their class accepts, no string is empty or
contains characters that would have to be escaped, and floats have at most 28 digits before the
decimal point. -/
def WellFormed (c : Cls) (v : Val Cls) : Prop :=
  hasS tables v (.cls c) = true ∧ plainVal xmlAttrs v = true

instance (c : Cls) (v : Val Cls) : Decidable (WellFormed c v) :=
  inferInstanceAs (Decidable (_ ∧ _))

/-- Written with `write_str_elem(v, tag)` and read with `read_str_elem(text, type_name)`, the
object is the same, except that exactly the attributes listed in `lossy` are no longer set and that
all annotations but the first are lost. -/
def Survives (tag typeName : Option String) (v : Val Cls) : Prop :=
  ∃ text v', writeStrElem tag v = .ok text ∧ readStrElem typeName text = .ok v' ∧
    Same (remains v) v' ∧ (noWhole v = true → v' = remains v)

/-- Written and read, the object is the same, except that exactly the attributes `lost` are no
longer set and that only the first element of the attributes `first` is left. -/
def SurvivesBut (lost first : Cls → List String) (tag typeName : Option String) (v : Val Cls) :
    Prop :=
  ∃ text v', writeStrElem tag v = .ok text ∧ readStrElem typeName text = .ok v' ∧
    Same (kept lost first v) v' ∧ (noWhole v = true → v' = kept lost first v)

/-- Written and read, the object is the same and nothing is lost. -/
def Intact (tag typeName : Option String) (v : Val Cls) : Prop :=
  ∃ text v', writeStrElem tag v = .ok text ∧ readStrElem typeName text = .ok v' ∧ Same v v' ∧
    (noWhole v = true → v' = v)

end Verif.Codec.Spec
