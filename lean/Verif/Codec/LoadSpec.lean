import Verif.Codec.PackageSpec
/-
When objects that were read from a file can be written again.
-/
namespace Verif.Codec.Spec
open Verif.Py Verif.Num

/-- At most 28 digits before the decimal point (C20), and not the float `-0.0`. -/
def shortNum : PyNum → Bool
  | .float (.fin neg c e) => (e < 0 || c * 10 ^ e.toNat < 10 ^ 28) && !(neg && c = 0)
  | _ => true

/-- The attributes an object of class `c` must have to be written and read: the mandatory arguments
of its constructor, and those without which the writer leaves the object out or the reader refuses
it (`narrow`). -/
def mandatory (c : Cls) : List String := ((covered c).filter (·.req)).map (·.attr)

/-- The ports a component prototype's connector end may refer to: provided ports at the providing
end, required ports at the requiring end. -/
def sides (c : Cls) : Option (List String) :=
  match c with
  | .ProviderPortInstanceRef | .InnerProvidedPortInstanceRef =>
    some ["ABSTRACT_PROVIDED_PORT_PROTOTYPE", "P_PORT_PROTOTYPE", "PR_PORT_PROTOTYPE"]
  | .RequesterPortInstanceRef =>
    some ["ABSTRACT_REQUIRED_PORT_PROTOTYPE", "R_PORT_PROTOTYPE", "PR_PORT_PROTOTYPE"]
  | .InnerRequiredPortInstanceRef => some ["ABSTRACT_REQUIRED_PORT_PROTOTYPE", "R_PORT_PROTOTYPE"]
  | _ => none

/-- What is asked of single attributes: strings that become XML attributes contain no quote, tab
or newline; mixed content has text at the beginning only; connector ends are on the right side. -/
def attrWritable (c : Cls) (k : String) (v : Val Cls) : Bool :=
  (k ∉ xmlAttrs || match v with | .str s => plainAttr s | _ => true) &&
  (k ≠ "parts" || match v with | .list vs => vs.tail.all notStr | _ => true) &&
  (k ≠ "port_ref" || match v, sides c with | .ref r, some ds => r.dest ∈ ds | _, _ => true)

mutual
/-- Nothing in the object stands in the way of writing it: no string is empty or contains
characters that would have to be escaped (C18), no float has more than 28 digits before the decimal
point (C20), all mandatory attributes are set.  No types: whether attributes have values of the
right type, references a destination their class accepts and so on is not asked here. -/
def writable : Val Cls → Bool
  | .str s => s ≠ "" && plainText s
  | .num n => shortNum n
  | .limit n _ => shortNum n
  | .ref r => r.value ≠ "" && plainText r.value
  | .list vs => writableList vs
  | .obj c fs => (mandatory c).all (fun k => decide (k ∈ fs.map (·.1))) && writableFields c fs
  | .bool _ => true
  | .numval _ => true
  | .enum _ => true
def writableFields (c : Cls) : List (String × Val Cls) → Bool
  | [] => true
  | (k, v) :: rest => writable v && attrWritable c k v && writableFields c rest
def writableList : List (Val Cls) → Bool
  | [] => true
  | v :: vs => writable v && writableList vs
end

mutual
/-- The same for the attributes of packages, their elements and sub-packages. -/
def writablePkg : Pkg → Bool
  | .mk head elements packages =>
    writable (.obj .Package head) && writableList elements && writablePkgs packages
def writablePkgs : List Pkg → Bool
  | [] => true
  | p :: ps => writablePkg p && writablePkgs ps
end

end Verif.Codec.Spec
