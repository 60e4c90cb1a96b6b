import Verif.Codec.Lang
/-
When an element object is well formed, what reading back is expected to give, and the check
that a writer method and a reader method agree.
-/
namespace Verif.Codec
open Verif.Py Verif.Enums Verif.Num Verif.Xml Verif.Xml.Spec
open Verif.Ref (RefObj construct DestArg refClasses)

variable {C W R : Type} [DecidableEq C] [DecidableEq W] [DecidableEq R]

/-! ### Well-formed objects -/

/-- The shortest decimal representation has no trailing zeros, and the float is written without
an exception: an integral one has at most 28 digits (C20). -/
def floatOk : PyFloat → Bool
  | .fin _ c e =>
    ((c = 0 && e = 0) || c % 10 ≠ 0) && (e < 0 || c * 10 ^ e.toNat < 10 ^ 28)
  | _ => true

/-- Numbers that can be written. -/
def numOk : PyNum → Bool
  | .int _ => true
  | .float f => floatOk f

/-- The member has a text in the default schema version. -/
def enumOk (m : Member) : Bool :=
  match enumToXml m defaultVersion with
  | .ok t => t ≠ ""
  | .error _ => false

/-- The class accepts the destination, and the destination has a text. -/
def refValOk (r : RefObj) : Bool :=
  r.value ≠ "" && enumOk ⟨"IdentifiableSubTypes", r.dest⟩ &&
    match dictGet refClasses r.cls with
    | some rc => r.dest ∈ rc.accepted
    | none => false

/-- At most `max`. -/
def maxOk (max : Option Nat) (n : Nat) : Bool :=
  match max with
  | none => true
  | some m => n ≤ m

/-- No text. -/
def notStr : Val C → Bool
  | .str _ => false
  | _ => true

/-- The attributes that are set, in the order of the class. -/
def orderOk (s : List (Field C)) (names : List String) : Bool :=
  names = (s.map (·.attr)).filter (· ∈ names) && s.all fun f => !f.req || f.attr ∈ names

/-- The attribute of a class. -/
def fieldOf (s : List (Field C)) (k : String) : Option (Field C) := s.find? fun f => f.attr = k

mutual
/-- The value has the type. -/
def hasS (T : Tables C W R) : Val C → STy C → Bool
  | .str s, a =>
    match a with
    | .str => s ≠ ""
    | .strNotInt => s ≠ "" && (pyInt s.toList).isNone
    | .alignment => s ≠ "" && (pyInt0 s.toList).isNone && alignmentMatch s.toList
    | .format => s ≠ "" && formatMatch s.toList
    | _ => false
  | .bool _, a => match a with | .bool => true | _ => false
  | .num n, a =>
    match a, n with
    | .int, .int _ => true
    | .nat, .int i => 0 ≤ i
    | .float, .float f => floatOk f
    | .castFloat, .float f => floatOk f && f ≠ .fin true 0 0
    | .numFloat, .float f => floatOk f
    | _, _ => false
  | .numval n, a =>
    match a, n with
    | .radix, ⟨.int i, .hexadecimal⟩ => 0 ≤ i
    | .radix, ⟨.int i, .binary⟩ => 0 ≤ i
    | _, _ => false
  | .enum m, a =>
    match a with
    | .enum c => m.cls = c && enumOk m
    | .member c => m.cls = c && m.exists?
    | _ => false
  | .limit n m, a =>
    match a with
    | .limit => numOk n && m.cls = "IntervalType" && enumOk m
    | _ => false
  | .ref r, a =>
    match a with
    | .ref c => r.cls = c && refValOk r
    | .refTo c ds => r.cls = c && refValOk r && r.dest ∈ ds
    | _ => false
  | .list _, _ => false
  | .obj c fs, a =>
    match a with
    | .cls c' => c = c' && orderOk (T.schema c) (fs.map (·.1)) && hasFields T (T.schema c) fs
    | _ => false
/-- Every attribute has its type. -/
def hasFields (T : Tables C W R) (s : List (Field C)) : List (String × Val C) → Bool
  | [] => true
  | (k, v) :: rest =>
    (match fieldOf s k with
    | none => false
    | some f =>
      match f.shape with
      | .one => f.alts.any (hasS T v)
      | .many max =>
        match v with
        | .list vs => !vs.isEmpty && maxOk max vs.length && hasList T f.alts vs
        | _ => false
      | .first =>
        match v with
        | .list vs => !vs.isEmpty && hasList T f.alts vs
        | _ => false
      | .mixed =>
        match v with
        | .list vs => !vs.isEmpty && vs.tail.all notStr && hasList T f.alts vs
        | _ => false) && hasFields T s rest
/-- Every element of a list has one of the types. -/
def hasList (T : Tables C W R) (alts : List (STy C)) : List (Val C) → Bool
  | [] => true
  | v :: vs => alts.any (hasS T v) && hasList T alts vs
end

/-! ### What reading back gives -/

/-- The number after a round trip through `_read_number`: floats without fractional part are
ints. -/
def canonNum : PyNum → PyNum
  | .float (.fin neg c e) =>
    if c = 0 then .int 0
    else if 0 ≤ e then .int (if neg then -(c * 10 ^ e.toNat : Int) else (c * 10 ^ e.toNat : Int))
    else .float (.fin neg c e)
  | n => n

/-- A field whose floats are read as numbers. -/
def numField (s : List (Field C)) (k : String) : Bool :=
  match fieldOf s k with
  | some f => f.alts.contains .numFloat
  | none => false

/-- What is left of the value of an attribute of which only the first value is read back. -/
def Field.cut (f : Field C) (v : Val C) : Val C :=
  match f.shape, v with
  | .first, .list (u :: _) => .list [u]
  | _, v => v

/-- `Field.cut` for the attribute of that name. -/
def cutAt (s : List (Field C)) (k : String) (v : Val C) : Val C :=
  match fieldOf s k with
  | some f => f.cut v
  | none => v

mutual
/-- The object without the attributes and list elements that are lost, and with integral floats replaced by ints in
the places where the reader cannot tell them apart. -/
def normVal (T : Tables C W R) (b : Bool) : Val C → Val C
  | .num n => .num (if b then canonNum n else n)
  | .limit n m => .limit (canonNum n) m
  | .list vs => .list (normList T b vs)
  | .obj c fs => .obj c (normFields T c fs)
  | .str s => .str s
  | .bool x => .bool x
  | .numval n => .numval n
  | .enum m => .enum m
  | .ref r => .ref r
def normFields (T : Tables C W R) (c : C) : List (String × Val C) → List (String × Val C)
  | [] => []
  | (k, v) :: rest =>
    if k ∈ T.lost c then normFields T c rest
    else (k, cutAt (T.schema c) k (normVal T (numField (T.schema c) k) v)) :: normFields T c rest
def normList (T : Tables C W R) (b : Bool) : List (Val C) → List (Val C)
  | [] => []
  | v :: vs => normVal T b v :: normList T b vs
end

/-! ### Agreement of writer and reader methods -/

mutual
/-- Outcome of a type test for all values of a type; `none` if it depends on the value. -/
def Test.stat (T : Tables C W R) : Test C → STy C → Option Bool
  | .any, _ => some true
  | .inst c, .cls c' => some (c ∈ T.mro c')
  | .inst _, _ => some false
  | .exact c, .cls c' => some (c = c')
  | .exact _, _ => some false
  | .isStr, .str => some true
  | .isStr, .strNotInt => some true
  | .isStr, .alignment => some true
  | .isStr, .format => some true
  | .isStr, _ => some false
  | .isInt, .int => some true
  | .isInt, .nat => some true
  | .isInt, .bool => some true
  | .isInt, _ => some false
  | .isFloat, .float => some true
  | .isFloat, .castFloat => some true
  | .isFloat, .numFloat => some true
  | .isFloat, _ => some false
  | .isNumVal, .radix => some true
  | .isNumVal, _ => some false
  | .oneOf ts, a => Test.statAny T ts a
  | .dest ds, .refTo _ ds' =>
    if ds'.all (· ∈ ds) then some true
    else if ds'.all (· ∉ ds) then some false
    else none
  | .dest _, .ref _ => none
  | .dest _, _ => some false
def Test.statAny (T : Tables C W R) : List (Test C) → STy C → Option Bool
  | [], _ => some false
  | t :: ts, a =>
    match t.stat T a, Test.statAny T ts a with
    | some x, some y => some (x || y)
    | _, _ => none
end

/-- The branch taken for all values of a type. -/
def pickS {α : Type} (T : Tables C W R) (a : STy C) : List (Test C × α) → Option α
  | [] => none
  | (t, x) :: rest =>
    match t.stat T a with
    | some true => some x
    | some false => pickS T a rest
    | none => none

/-- The tag of what a writer method writes. -/
def methTag (T : Tables C W R) (m : W) (arg : Option String) : Option String :=
  match T.wm m arg with
  | .bad _ => none
  | .node _ fixed _ _ _ => tagOf fixed arg
  | .ref _ fixed => tagOf fixed arg
  | .leaf _ tag _ _ _ => some tag
  | .mixed _ fixed _ _ _ => tagOf fixed arg

/-- The tag of what is written. -/
def atomTag (T : Tables C W R) : WAtom W → Option String
  | .meth m arg => methTag T m arg
  | .text tag _ => some tag
  | .limit tag => some tag

/-- All tags a statement can write. -/
def itemTags (T : Tables C W R) : WItem C W → List String
  | .one _ _ wrap alts _ =>
    match wrap with
    | some t => [t]
    | none => (alts.filterMap fun a => atomTag T a.2).eraseDups
  | .many _ _ wrap alts _ =>
    match wrap with
    | some t => [t]
    | none => (alts.filterMap fun a => atomTag T a.2).eraseDups
  | .each _ wrap _ _ => [wrap]

/-- The attribute a statement writes. -/
def WItem.field : WItem C W → String
  | .one _ f _ _ _ => f
  | .many _ f _ _ _ => f
  | .each f _ _ _ => f

/-- The constructor argument a statement sets. -/
def RItem.key : RItem R → String
  | .text k _ => k
  | .noKids _ => ""
  | .attr _ k _ _ => k
  | .required _ k => k
  | .one _ k _ _ _ _ => k
  | .many _ k _ _ _ => k
  | .flat k _ _ => k
  | .choice k _ _ => k
  | .admin => ""

/-- Objects of class `c` are written by `w` (with tag parameter `arg`) and read by `r`. -/
structure Pair (C W R : Type) where
  c : C
  w : W
  arg : Option String
  r : R
deriving DecidableEq, Repr

/-- Text written in this way is read back in that way. -/
def scalarOk : STy C → Fmt → Conv → Bool
  | .str, f, c => (f = .plain || f = .str) && (c = .text || c = .str)
  | .strNotInt, f, c => (f = .plain || f = .str) && c = .intOrText
  | .alignment, f, c => (f = .plain || f = .str) && c = .int0OrText
  | .format, f, c => (f = .plain || f = .str) && (c = .text || c = .str)
  | .bool, f, c => f = .boolean && c = .boolean
  | .int, f, c =>
    (f = .str || f = .number) &&
      (c = .number || c = .integer || c = .int || c = .numVal || c = .numPlain ||
        c = .intOrText || c = .int0OrText)
  | .nat, f, c =>
    (f = .str || f = .number) &&
      (c = .number || c = .integer || c = .int || c = .posInt || c = .numVal || c = .numPlain ||
        c = .intOrText || c = .int0OrText)
  | .float, f, c => (f = .float || f = .number) && c = .float
  | .castFloat, f, c => (f = .float || f = .number) && c = .castFloat
  | .numFloat, f, c =>
    (f = .float || f = .number) && (c = .number || c = .numVal || c = .numPlain)
  | .radix, f, c => f = .number && c = .numVal
  | .enum cls, f, c => f = .enum && c = .enum cls
  | _, _, _ => false

/-- A reference of class `cls` is written by `m` and read back by `r`. -/
def refOk (T : Tables C W R) (cls : String) (m : W) (arg : Option String) (r : R) : Bool :=
  match T.wm m arg, methTag T m arg with
  | .ref acc _, some tag =>
    (acc = none || acc = some cls) &&
    match T.rm r tag, dictGet refClasses cls with
    | .ref cls' dest, some rc =>
      cls' = cls &&
      match dest with
      | none => true
      | some d =>
        match rc.accepted with
        | [m] => enumToXml ⟨"IdentifiableSubTypes", m⟩ defaultVersion = .ok d &&
            (rc.default = none || rc.default = some m)
        | _ => false
    | _, _ => false
  | _, _ => false

/-- What `wa` writes for values of type `a` is read back by `ra`. -/
def atomOk (T : Tables C W R) (P : List (Pair C W R)) (a : STy C) : WAtom W → RAtom R → Bool
  | .text _ f, .conv c => scalarOk a f c
  | .limit _, .limit => a = .limit
  | .meth m arg, .meth r =>
    match a with
    | .ref cls => refOk T cls m arg r
    | .refTo cls _ => refOk T cls m arg r
    | .cls c => P.contains ⟨c, m, arg, r⟩
    | _ => false
  | _, _ => false

/-- The atom written for a type, with its tag. -/
def written (T : Tables C W R) (a : STy C) (alts : List (Test C × WAtom W)) :
    Option (WAtom W × String) :=
  match pickS T a alts with
  | none => none
  | some wa =>
    match atomTag T wa with
    | none => none
    | some t => some (wa, t)

/-- Values of type `a` are written by one of the branches `alts` and read back by one of the
branches `ralts`. -/
def callOk (T : Tables C W R) (P : List (Pair C W R)) (alts : List (Test C × WAtom W))
    (ralts : RAlts R) (a : STy C) : Bool :=
  match written T a alts with
  | none => false
  | some (wa, t) =>
    match pickTag t ralts with
    | none => false
    | some ra => atomOk T P a wa ra

/-- The tag written for a type is `tag`. -/
def tagIs (T : Tables C W R) (alts : List (Test C × WAtom W)) (tag : String) (a : STy C) : Bool :=
  match written T a alts with
  | none => false
  | some (_, t) => t = tag

/-- A value of the type is never false. -/
def neverFalse : STy C → Bool
  | .bool | .int | .nat | .float | .castFloat | .numFloat => false
  | _ => true

/-- The guard holds for every value of the field; a field written without a test is required. -/
def guardOk (g : Guard) (f : Field C) : Bool :=
  match g with
  | .notNone => true
  | .truthy => f.shape ≠ .one || f.alts.all neverFalse
  | .always => f.req || f.shape ≠ .one

/-- A field may not mix floats that stay floats with floats read as numbers. -/
def floatsOk (f : Field C) : Bool :=
  !((f.alts.contains .float || f.alts.contains .castFloat) && f.alts.contains .numFloat)

/-- The reader statement `ri` reads back what the writer statement `wi` writes for field `f`
(or, for some types of the field, does not see it). -/
def linkOk (T : Tables C W R) (P : List (Pair C W R)) (f : Field C) (wi : WItem C W)
    (ri : RItem R) : Bool :=
  f.param = ri.key &&
  match f.shape, wi, ri with
  | .one, .one g _ none alts _, .one tag _ .self ralts _ _ =>
    guardOk g f && f.alts.all fun a =>
      match written T a alts with
      | none => false
      | some (_, t) => t ≠ tag || callOk T P alts ralts a
  | .one, .one g _ (some w) alts _, .one tag _ .first ralts _ _ =>
    guardOk g f && w = tag && f.alts.all (callOk T P alts ralts)
  | .one, .one g _ (some w) alts _, .one tag _ (.tag t) ralts _ _ =>
    guardOk g f && w = tag && f.alts.all fun a => tagIs T alts t a && callOk T P alts ralts a
  | .one, .one g _ none alts _, .choice _ ralts _ =>
    guardOk g f && decide ((ralts.map (·.1)).Nodup) &&
      f.alts.all (callOk T P alts (ralts.map fun p => (some p.1, p.2)))
  | .one, .one g _ none alts _, .required tag _ =>
    guardOk g f && f.alts.all fun a =>
      tagIs T alts tag a && callOk T P alts [(some tag, .conv .text)] a
  | .many max, .many g _ (some w) alts _, .many tag _ ralts _ rmax =>
    guardOk g f && g ≠ .always && w = tag && f.alts.all (callOk T P alts ralts) &&
      match rmax with
      | none => true
      | some n => match max with
        | none => false
        | some m => m ≤ n
  | .many _, .many g _ none alts _, .flat _ ralts _ =>
    guardOk g f && f.alts.all (callOk T P alts ralts)
  | .first, .each _ w alts _, .many tag _ ralts _ rmax =>
    w = tag && f.alts.all (callOk T P alts ralts) && (rmax = none || rmax = some 1)
  | _, _, _ => false

/-- The reader statement `ri` does not look at anything with this tag. -/
def blind (ri : RItem R) (t : String) : Bool :=
  match ri with
  | .text _ _ => false
  | .noKids _ => false
  | .attr _ _ _ _ => true
  | .required tag _ => t ≠ tag
  | .one tag _ _ _ _ _ => t ≠ tag
  | .many tag _ _ _ _ => t ≠ tag
  | .flat _ ralts miss => (pickTag t ralts).isNone && miss.isNone
  | .choice _ ralts _ => ralts.all fun a => t ≠ a.1
  | .admin => t ≠ "ADMIN-DATA"

/-- `ri` does not look at anything `wi` writes. -/
def apart (T : Tables C W R) (wi : WItem C W) (ri : RItem R) : Bool :=
  (itemTags T wi).all (blind ri)

/-- `ri` reads values of type `a` that `wi` writes. -/
def covers (T : Tables C W R) (a : STy C) (wi : WItem C W) (ri : RItem R) : Bool :=
  match wi, ri with
  | .one _ _ none alts _, .one tag _ .self _ _ _ => tagIs T alts tag a
  | _, _ => true

/-- The XML attribute `wa` of field `f` is read back by the statement `ri`. -/
def attrOk (f : Field C) (wa : WAttr) (ri : RItem R) : Bool :=
  match ri with
  | .attr name key c _ =>
    f.param = key && wa.name = name && f.shape = .one &&
    if wa.enum then
      match f.alts with
      | [.enum cls] => c = .enum cls
      | _ => false
    else f.alts = [.str] && (c = .text || c = .str)
  | _ => false

/-- The reader statement `ri` agrees with everything that is written: it sets the constructor
argument of the attribute it finds, to the value of that attribute.
`L` are the attributes that are lost; `txt` is the attribute written as text content, if the
element has text instead of children. -/
def readerOk (T : Tables C W R) (P : List (Pair C W R)) (s : List (Field C)) (L : List String)
    (A : List WAttr)
    (I : List (WItem C W)) (txt : Option (Option String)) (ri : RItem R) : Bool :=
  match ri with
  | .text key c =>
    match txt with
    | some (some k) =>
      match fieldOf s k with
      | some f => f.param = key && f.shape = .one && f.alts = [.str] && (c = .text || c = .str)
      | none => false
    | _ => false
  | .noKids _ => txt.isSome
  | .attr name _ _ req =>
    (A.all fun wa => wa.name ≠ name ||
      match fieldOf s wa.field with
      | none => true
      | some f => decide (wa.field ∉ L) && attrOk f wa ri) &&
    (!req || A.any fun wa => wa.name = name &&
      match fieldOf s wa.field with
      | none => false
      | some f => f.req)
  | _ =>
    (I.all fun wi => apart T wi ri ||
      match fieldOf s wi.field with
      | none => true
      | some f => decide (wi.field ∉ L) && linkOk T P f wi ri) &&
    match ri with
    | .required _ _ => I.any fun wi =>
        match fieldOf s wi.field with
        | none => false
        | some f => f.req && decide (wi.field ∉ L) && linkOk T P f wi ri
    | .flat _ _ _ => I.any fun wi =>
        match fieldOf s wi.field with
        | none => false
        | some f => decide (wi.field ∉ L) && linkOk T P f wi ri
    | .choice _ _ true => I.any fun wi =>
        match fieldOf s wi.field with
        | none => false
        | some f => f.req && decide (wi.field ∉ L) && linkOk T P f wi ri
    | _ => true

/-- The attribute `f` is written, and read back by some reader statement (for those written by
a statement of the method this is part of `writerOk`), or lost. -/
def fieldOk (L : List String) (A : List WAttr) (I : List (WItem C W)) (txt : Option (Option String))
    (rs : List (RItem R)) (f : Field C) : Bool :=
  floatsOk f &&
  (decide (f.attr ∈ L) || (I.any fun wi => wi.field = f.attr) ||
   (A.any fun wa => wa.field = f.attr && rs.any fun ri => attrOk f wa ri) ||
   (txt = some (some f.attr) && rs.any fun ri =>
      match ri with
      | .text key _ => key = f.param
      | _ => false))

/-- The statement writes nothing for an attribute that is not set. -/
def absentOk : WItem C W → Bool
  | .one g _ _ _ _ => g ≠ .always
  | .many g _ wrap _ _ => g ≠ .always || wrap = none
  | .each _ _ _ _ => true

/-- The statement only writes text that nobody reads. -/
def lostOk (T : Tables C W R) (f : Field C) (wi : WItem C W) : Bool :=
  match wi with
  | .one _ _ none alts _ =>
    f.shape = .one && f.alts.all fun a =>
      match a, pickS T a alts with
      | .enum _, some (.text _ .enum) => true
      | _, _ => false
  | _ => false

/-- A writer statement succeeds on well-formed objects: nothing is written without a test for
an attribute that may be missing, and each value type of the attribute is written by one of the
branches and, unless the attribute is lost, read back by one of the reader statements. -/
def writerOk (T : Tables C W R) (P : List (Pair C W R)) (s : List (Field C)) (L : List String)
    (rs : List (RItem R))
    (wi : WItem C W) : Bool :=
  match fieldOf s wi.field with
  | none => absentOk wi
  | some f =>
    (f.req || absentOk wi) &&
      if wi.field ∈ L then lostOk T f wi
      else f.alts.all fun a => rs.any fun ri => linkOk T P f wi ri && covers T a wi ri

/-- A writer attribute that is always written belongs to a required field. -/
def wattrOk (s : List (Field C)) (wa : WAttr) : Bool :=
  match fieldOf s wa.field with
  | none => !wa.req
  | some f =>
    (!wa.req || f.req) && f.shape = .one &&
      if wa.enum then (match f.alts with | [.enum _] => true | _ => false) else f.alts = [.str]

/-- Attribute names and constructor arguments are distinct. -/
def schemaOk (s : List (Field C)) : Bool :=
  decide ((s.map (·.attr)).Nodup) && decide ((s.map (·.param)).Nodup)

/-- The shapes hold the same kind of value. -/
def shapeLe : Shape → Shape → Bool
  | .one, .one => true
  | .many _, .many none => true
  | .many (some m), .many (some n) => m ≤ n
  | .first, .many none => true
  | .mixed, .mixed => true
  | _, _ => false

/-- The attributes `s` are those of the constructor arguments `full`, in the same order; some may
be left out or admit fewer values. -/
def narrows : List (Field C) → List (Field C) → Bool
  | [], [] => true
  | [], _ :: _ => false
  | f :: full, [] => !f.req && narrows full []
  | f :: full, g :: s =>
    if f.param = g.param then
      f.attr = g.attr && (g.alts.all fun a => f.alts.contains a) && shapeLe g.shape f.shape &&
        (!f.req || g.req) && decide (f.param ∉ full.map (·.param)) && narrows full s
    else !f.req && decide (f.param ∉ s.map (·.param)) && narrows full (g :: s)

/-- The mixed content pieces of type `a` are text or leaf elements that are read back. -/
def partOk (T : Tables C W R) (P : List (Pair C W R)) (alts : List (Test C × WAtom W))
    (tags : List (String × R)) (a : STy C) : Bool :=
  match a with
  | .str => true
  | .cls c =>
    match pickS T a alts with
    | some (.meth m arg) =>
      match T.wm m arg with
      | .leaf _ tag _ _ _ =>
        match dictGet tags tag with
        | some r => P.contains ⟨c, m, arg, r⟩
        | none => false
      | _ => false
    | _ => false
  | _ => false

/-- Writer method and reader method of a pair agree. -/
def pairOk (T : Tables C W R) (P : List (Pair C W R)) (p : Pair C W R) : Bool :=
  let s := T.schema p.c
  let L := T.lost p.c
  (s.all fun f => decide (f.attr ∉ L) || !f.req) && schemaOk s && narrows (T.ctor p.c) s &&
  match methTag T p.w p.arg with
  | none => false
  | some tag =>
    match T.wm p.w p.arg, T.rm p.r tag with
    | .node acc _ A _ I, .node c rs =>
      c = p.c && (match acc with | some k => decide (k ∈ T.mro p.c) | none => true) &&
      decide ((A.map (·.name)).Nodup) && decide ((I.map (·.field)).Nodup) &&
      A.all (wattrOk s) && I.all (writerOk T P s L rs) &&
      rs.all (readerOk T P s L A I none) && s.all (fieldOk L A I none rs)
    | .leaf acc _ A field _, .node c rs =>
      c = p.c && decide (acc ∈ T.mro p.c) && decide ((A.map (·.name)).Nodup) &&
      A.all (wattrOk s) &&
      (match field with
        | none => true
        | some k => match fieldOf s k with
          | some f => decide (k ∉ L) && f.req && f.shape = .one && f.alts = [.str]
          | none => false) &&
      rs.all (readerOk T P s L A [] (some field)) && s.all (fieldOk L A ([] : List (WItem C W)) (some field) rs)
    | .mixed acc _ A field alts, .mixed c rs key tags _ =>
      c = p.c && decide (acc ∈ T.mro p.c) && decide ((A.map (·.name)).Nodup) &&
      A.all (wattrOk s) && rs.all (fun ri => match ri with
        | .attr _ _ _ _ => readerOk T P s L A [] none ri
        | _ => false) &&
      (match fieldOf s field with
        | some f => decide (field ∉ L) && f.shape = .mixed && f.param = key && f.alts.all (partOk T P alts tags)
        | none => false) &&
      s.all (fun f => f.attr = field || fieldOk L A ([] : List (WItem C W)) none rs f)
    | _, _ => false

/-- All pairs agree. -/
def allOk (T : Tables C W R) (P : List (Pair C W R)) : Bool := P.all (pairOk T P)

end Verif.Codec
