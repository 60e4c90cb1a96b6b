import Verif.Py
import Verif.Enums.Model
import Verif.Ref.Model
import Verif.Num.Text
import Verif.Num.Limits
import Verif.Xml.Writer
import Verif.Xml.Parse
import Verif.Codec.Pattern
/-
The small language the `_write_*` methods (src/autosar/xml/writer.py) and `_read_*` methods
(src/autosar/xml/reader.py) are written in, and its meaning.

Nearly every method is a sequence of a few statement patterns: "if this attribute is set, add
an element with this tag for it", "if there is a child with this tag, store it under this
constructor argument".  A method is described by the list of its statements (`WMethod`,
`RMethod`); the tables with all methods are in `Verif/Codec/Writer*.lean` and `Reader*.lean`.

`C` are the element classes, `W` and `R` the names of the writer and reader methods.
-/
namespace Verif.Codec
open Verif.Py Verif.Enums Verif.Num Verif.Xml Verif.Xml.Spec
open Verif.Ref (RefObj construct DestArg)

/-! ### Element objects -/

/-- What an attribute of an element object holds.  `None` and the empty list are not values:
an attribute holding one of them is left out of `obj`.
Simplifications: a tuple is a list; `limit` holds an interval limit together with the interval
type that the code stores in a second attribute (`lower_limit`, `lower_limit_type`). -/
inductive Val (C : Type) where
  | str (s : String)
  | bool (b : Bool)
  | num (n : PyNum)
  | numval (n : NumericalValue)
  | enum (m : Member)
  | limit (n : PyNum) (m : Member)
  | ref (r : RefObj)
  | list (vs : List (Val C))
  | obj (c : C) (fs : List (String × Val C))
deriving Repr

/-! ### Writer methods -/

/-- How a value becomes text. -/
inductive Fmt where
  /-- `str(x)` -/
  | str
  /-- `x` itself; `_add_content` asserts that it is a `str` (writer.py 104) -/
  | plain
  /-- `ar_enum.enum_to_xml(x)` -/
  | enum
  /-- `self._format_boolean(x)` (writer.py 154-159) -/
  | boolean
  /-- `self._format_float(x)` (writer.py 127-139) -/
  | float
  /-- `self._format_number(x)` (writer.py 141-152) -/
  | number
deriving DecidableEq, Repr

/-- `if x is not None`, `if x` / `if len(x) > 0`, or no test. -/
inductive Guard where
  | notNone | truthy | always
deriving DecidableEq, Repr

/-- Type tests that select what is written. -/
inductive Test (C : Type) where
  /-- no test -/
  | any
  /-- `isinstance(x, cls)` -/
  | inst (c : C)
  /-- `x.__class__.__name__ == ...` (the switcher tables) -/
  | exact (c : C)
  | isStr
  | isInt
  | isFloat
  | isNumVal
  /-- `isinstance(x, (a, b, ...))` -/
  | oneOf (ts : List (Test C))
  /-- a reference whose `dest` is one of these -/
  | dest (ds : List String)
deriving Repr

/-- What is written for one value. -/
inductive WAtom (W : Type) where
  /-- `self._write_xxx(x)` or `self._write_xxx(x, tag)` -/
  | meth (m : W) (tag : Option String)
  /-- `self._add_content(tag, text)` -/
  | text (tag : String) (f : Fmt)
  /-- `self._write_limit(tag, x, x_type)` (writer.py 1031-1044) -/
  | limit (tag : String)
deriving Repr

/-- One statement of a writer method. -/
inductive WItem (C W : Type) where
  /-- `if elem.field ...: [add_child(wrap)] write [leave_child]`; `alts` are the branches of
  the `isinstance` chain, `miss` what happens when no branch fits (`none`: nothing) -/
  | one (g : Guard) (field : String) (wrap : Option String)
      (alts : List (Test C × WAtom W)) (miss : Option PyErr)
  /-- `if elem.field ...: [add_child(wrap)] for x in elem.field: write [leave_child]` -/
  | many (g : Guard) (field : String) (wrap : Option String)
      (alts : List (Test C × WAtom W)) (miss : Option PyErr)
  /-- `_write_annotations` (writer.py 573-584): every value gets a wrapper of its own -/
  | each (field : String) (wrap : String) (alts : List (Test C × WAtom W)) (miss : Option PyErr)
deriving Repr

/-- One XML attribute of a writer method: `if elem.field is not None: attr.append((name, ..))`;
`req`: appended without the test. -/
structure WAttr where
  name : String
  field : String
  enum : Bool
  req : Bool
deriving DecidableEq, Repr

/-- A writer method. -/
inductive WMethod (C W : Type) where
  /-- `assert isinstance(elem, acc)`; `_add_child(tag, attr)`, statements, `_leave_child()`.
  `tag = none`: the tag is a parameter.  `empty`: an element without any content is written
  by `_add_content(tag)` (`if elem.is_empty: ...`). -/
  | node (acc : Option C) (tag : Option String) (attrs : List WAttr) (empty : Bool)
      (items : List (WItem C W))
  /-- reference writers: `assert isinstance(elem, acc)`, DEST attribute, value -/
  | ref (acc : Option String) (tag : Option String)
  /-- `_add_content(tag, elem.field, attr)`; `miss` is raised when the text is missing,
  `field = none` writes an empty element -/
  | leaf (acc : C) (tag : String) (attrs : List WAttr) (field : Option String) (miss : PyErr)
  /-- `_begin_line`, one inline piece per part, `_end_line` -/
  | mixed (acc : C) (tag : Option String) (attrs : List WAttr) (field : String)
      (alts : List (Test C × WAtom W))
  /-- the method raises for this tag -/
  | bad (e : PyErr)
deriving Repr

/-! ### Reader methods -/

/-- How text becomes a value. -/
inductive Conv where
  /-- `elem.text` -/
  | text
  /-- `str(elem.text)` -/
  | str
  /-- `ar_enum.xml_to_enum(cls, elem.text)` -/
  | enum (cls : String)
  /-- `self._read_boolean(elem.text)` (reader.py 443-452) -/
  | boolean
  /-- `self._read_number(elem.text)` (reader.py 454-465) -/
  | number
  /-- `self._read_integer(elem.text)` (reader.py 467-475) -/
  | integer
  /-- `int(elem.text)` -/
  | int
  /-- `float(elem.text)` -/
  | float
  /-- `ar_element.PositiveIntegerValue(elem.text).value` -/
  | posInt
  /-- `ar_element.NumericalValue(elem.text)`: the plain value unless it has a format of its
  own -/
  | numVal
  /-- `ar_element.NumericalValue(elem.text).value` -/
  | numPlain
  /-- `int(text)`, and the text itself when that raises ValueError -/
  | intOrText
  /-- `int(text, 0)`, and the text itself when that raises ValueError -/
  | int0OrText
  /-- `self._read_number(elem.text)` for an argument that the constructor turns into a float
  (`self._assign_optional(name, value, float)`, base.py 136-144) -/
  | castFloat
deriving DecidableEq, Repr

/-- How one element is read. -/
inductive RAtom (R : Type) where
  | conv (c : Conv)
  | meth (m : R)
  /-- `self._read_limit(elem)` (reader.py 1254-1262): number and INTERVAL-TYPE -/
  | limit
deriving Repr

/-- Which element below a child is read. -/
inductive Inner where
  /-- the child itself -/
  | self
  /-- `child.find('./*')` / `child[0]` -/
  | first
  /-- `child.find('./TAG')` -/
  | tag (t : String)
deriving DecidableEq, Repr

/-- Branches on the tag (`none`: any tag) in order. -/
abbrev RAlts (R : Type) := List (Option String × RAtom R)

/-- One statement of a reader method. -/
inductive RItem (R : Type) where
  /-- `data[key] = elem.text` -/
  | text (key : String) (c : Conv)
  /-- `if len(elem.findall('./*')) > 0: raise` -/
  | noKids (e : PyErr)
  /-- `if name in attrib: data[key] = ...`; `req`: without the test (KeyError) -/
  | attr (name key : String) (c : Conv) (req : Bool)
  /-- SHORT-NAME (reader.py 484-489): ParseError when it is missing -/
  | required (tag key : String)
  /-- `child = elements.get(tag); if child is not None: data[key] = ...`; `miss` is raised when
  no branch fits (`none`: nothing happens); `catchKey`: inside `try: .. except KeyError` -/
  | one (tag key : String) (inner : Inner) (alts : RAlts R) (miss : Option PyErr)
      (catchKey : Bool)
  /-- `child = elements.get(tag); if child is not None: for x in child.findall(..): append` -/
  | many (tag key : String) (alts : RAlts R) (miss : Option PyErr) (max : Option Nat)
  /-- `for x in elem.findall(..): append` -/
  | flat (key : String) (alts : RAlts R) (miss : Option PyErr)
  /-- several tags of which at most one may be present (ParseError otherwise), exactly one if
  `req` -/
  | choice (key : String) (alts : List (String × RAtom R)) (req : Bool)
  /-- ADMIN-DATA (reader.py 518-520): read, but nothing comes of it -/
  | admin
deriving Repr

/-- A reader method. -/
inductive RMethod (C R : Type) where
  /-- collect `data`, `return cls(**data)` -/
  | node (cls : C) (items : List (RItem R))
  /-- reference readers (reader.py 2287-): DEST must be `dest` if given -/
  | ref (cls : String) (dest : Option String)
  /-- mixed content (reader.py 847-1126): `tags` are read, `skipped` reported and skipped,
  anything else is a ParseError -/
  | mixed (cls : C) (attrs : List (RItem R)) (key : String) (tags : List (String × R))
      (skipped : List String)
  | bad (e : PyErr)
deriving Repr

/-! ### Classes -/

/-- Type of a single value, as far as the reading and writing of it depends on the type. -/
inductive STy (C : Type) where
  /-- non-empty string -/
  | str
  /-- non-empty string that `int(text)` refuses -/
  | strNotInt
  /-- alignment: non-empty string that `int(text, 0)` refuses and that matches the pattern -/
  | alignment
  /-- display format: string that matches the pattern -/
  | format
  | bool
  | int
  /-- `int` that is not negative -/
  | nat
  /-- `float`, read back with `float(text)` -/
  | float
  /-- `float` other than `-0.0` in an attribute that is always a float, read back as a number -/
  | castFloat
  /-- `float` where any number may stand; without fractional part it is read back as an `int` -/
  | numFloat
  /-- `NumericalValue` in hexadecimal or binary format, not negative -/
  | radix
  | enum (cls : String)
  /-- member of an enumeration that need not have a text in XML -/
  | member (cls : String)
  /-- interval limit with interval type -/
  | limit
  | ref (cls : String)
  /-- reference of this class with one of these destinations -/
  | refTo (cls : String) (ds : List String)
  | cls (c : C)
deriving DecidableEq, Repr

/-- Single value, list of values or mixed content (text only at the beginning). -/
inductive Shape where
  | one
  /-- list of at most that many values -/
  | many (max : Option Nat)
  /-- list of which only the first value is read back -/
  | first
  | mixed
deriving DecidableEq, Repr

/-- An attribute of a class: constructor argument, attribute name, type. -/
structure Field (C : Type) where
  param : String
  attr : String
  shape : Shape
  alts : List (STy C)
  req : Bool
deriving Repr

/-- All tables. `mro c` are `c` and its base classes.  `ctor c` are the arguments the constructor
of `c` accepts; `schema c` the attributes an object may have set to be covered by the round trip
theorems and `lost c` those of them that do not come back (both not used by writer and reader). -/
structure Tables (C W R : Type) where
  wm : W → Option String → WMethod C W
  rm : R → String → RMethod C R
  ctor : C → List (Field C)
  schema : C → List (Field C)
  lost : C → List String
  mro : C → List C

/-! ### Meaning of the writer methods -/

variable {C W R : Type} [DecidableEq C]

/-- `bool(x)`. -/
def truthy : Val C → Bool
  | .str s => s ≠ ""
  | .bool b => b
  | .num (.int i) => i ≠ 0
  | .num (.float (.fin _ c _)) => c ≠ 0
  | .list vs => !vs.isEmpty
  | _ => true

/-- `x is not None` and the like, for an attribute that is set. -/
def Guard.holds (g : Guard) (v : Val C) : Bool :=
  match g with
  | .truthy => Codec.truthy v
  | _ => true

/-- `isinstance(v, c)` for element classes. -/
def isInst (T : Tables C W R) (c : C) : Val C → Bool
  | .obj c' _ => c ∈ T.mro c'
  | _ => false

mutual
/-- The type tests. -/
def Test.eval (T : Tables C W R) : Test C → Val C → Bool
  | .any, _ => true
  | .inst c, v => isInst T c v
  | .exact c, .obj c' _ => c = c'
  | .isStr, .str _ => true
  | .isInt, .num (.int _) => true
  | .isInt, .bool _ => true
  | .isFloat, .num (.float _) => true
  | .isNumVal, .numval _ => true
  | .oneOf ts, v => Test.evalAny T ts v
  | .dest ds, .ref r => r.dest ∈ ds
  | _, _ => false
def Test.evalAny (T : Tables C W R) : List (Test C) → Val C → Bool
  | [], _ => false
  | t :: ts, v => t.eval T v || Test.evalAny T ts v
end

/-- Text of a value.  `str` of a float or of an object does not occur. -/
def Fmt.run : Fmt → Val C → Except PyErr String
  | .str, .str s => .ok s
  | .str, .num (.int i) => .ok (String.ofList (intStr i))
  | .str, .bool b => .ok (if b then "True" else "False")
  | .str, _ => .error .notImplemented
  | .plain, .str s => .ok s
  | .plain, _ => .error .assertionError
  | .enum, .enum m => enumToXml m defaultVersion
  | .enum, _ => .error .keyError
  | .boolean, .bool b => .ok (if b then "true" else "false")
  | .boolean, _ => .error .assertionError
  | .float, .num (.float f) => (formatFloat f).map String.ofList
  | .float, .num (.int i) => (formatFloatInt i).map String.ofList
  | .float, _ => .error .typeError
  | .number, .num n => (formatNumber n).map String.ofList
  | .number, .bool b => .ok (if b then "True" else "False")
  | .number, .numval n => (formatNumericalValue n).map String.ofList
  | .number, _ => .error .typeError

/-- Results of successive calls, one after the other; the first exception ends it. -/
def collect {α : Type} : List (Except PyErr (List α)) → Except PyErr (List α)
  | [] => .ok []
  | .error e :: _ => .error e
  | .ok a :: rest =>
    match collect rest with
    | .error e => .error e
    | .ok b => .ok (a ++ b)

/-- An object with, for every object below it, what each writer method does with it. -/
inductive WDen (C W : Type) where
  | mk (v : Val C) (write : W → Option String → Except PyErr (List Xml))
      (fields : List (String × WDen C W)) (elems : List (WDen C W))

namespace WDen
def val : WDen C W → Val C | .mk v _ _ _ => v
def write : WDen C W → W → Option String → Except PyErr (List Xml) | .mk _ w _ _ => w
def fields : WDen C W → List (String × WDen C W) | .mk _ _ f _ => f
def elems : WDen C W → List (WDen C W) | .mk _ _ _ e => e
end WDen

/-- First branch whose test holds. -/
def pick {α : Type} (T : Tables C W R) (v : Val C) : List (Test C × α) → Option α
  | [] => none
  | (t, a) :: rest => if t.eval T v then some a else pick T v rest

/-- `_write_limit` (writer.py 1031-1044): the number formatted as a float if it is one, the
interval type as attribute. -/
def writeLimit (tag : String) : Val C → Except PyErr (List Xml)
  | .limit n m =>
    match enumToXml m defaultVersion, formatNumber n with
    | .ok i, .ok t => .ok [.leaf tag [("INTERVAL-TYPE", i)] (String.ofList t)]
    | .error e, _ => .error e
    | _, .error e => .error e
  | _ => .error .attributeError

/-- One value. -/
def writeAtom (d : WDen C W) : WAtom W → Except PyErr (List Xml)
  | .meth m tag => d.write m tag
  | .text tag f =>
    match f.run d.val with
    | .ok s => .ok [.leaf tag [] s]
    | .error e => .error e
  | .limit tag => writeLimit tag d.val

/-- One value through the branches. -/
def writeCall (T : Tables C W R) (alts : List (Test C × WAtom W)) (miss : Option PyErr)
    (d : WDen C W) : Except PyErr (List Xml) :=
  match pick T d.val alts with
  | some a => writeAtom d a
  | none =>
    match miss with
    | none => .ok []
    | some e => .error e

/-- `_add_child(wrap)`, content, `_leave_child()`. -/
def wrapped (wrap : Option String) (r : Except PyErr (List Xml)) : Except PyErr (List Xml) :=
  match wrap, r with
  | some t, .ok ks => .ok [.node t [] ks]
  | _, r => r

/-- One statement.  An attribute written without a test must be set: `_add_content` asserts a
`str`, the other methods their class. -/
def writeItem (T : Tables C W R) (ds : List (String × WDen C W)) :
    WItem C W → Except PyErr (List Xml)
  | .one g f wrap alts miss =>
    match dictGet ds f with
    | none => if g = .always then .error .assertionError else .ok []
    | some d => if g.holds d.val then wrapped wrap (writeCall T alts miss d) else .ok []
  | .many g f wrap alts miss =>
    match dictGet ds f with
    | none => if g = .always then wrapped wrap (.ok []) else .ok []
    | some d =>
      if g.holds d.val then
        match d.val with
        | .list _ => wrapped wrap (collect (d.elems.map (writeCall T alts miss)))
        | _ => .error .typeError
      else .ok []
  | .each f wrap alts miss =>
    match dictGet ds f with
    | none => .ok []
    | some d =>
      match d.val with
      | .list _ => collect (d.elems.map fun e => wrapped (some wrap) (writeCall T alts miss e))
      | _ => .error .typeError

/-- XML attributes. -/
def writeAttr (ds : List (String × WDen C W)) (a : WAttr) : Except PyErr (List (String × String)) :=
  match dictGet ds a.field with
  | none => if a.req then .error .attributeError else .ok []
  | some d =>
    match (if a.enum then Fmt.enum else Fmt.plain).run d.val with
    | .ok s => .ok [(a.name, s)]
    | .error e => .error e

/-- The tag of an element: fixed by the method, or its parameter. -/
def tagOf (fixed arg : Option String) : Option String :=
  match fixed with
  | some t => some t
  | none => arg

/-- Inline pieces: text as it is, otherwise what the branch writes. -/
def writePart (T : Tables C W R) (alts : List (Test C × WAtom W)) (d : WDen C W) :
    Except PyErr (List Part) :=
  match d.val with
  | .str s => .ok [.text s]
  | _ =>
    match writeCall T alts (some .typeError) d with
    | .ok [.leaf t as s] => .ok [.elem t as s]
    | .ok _ => .error .notImplemented
    | .error e => .error e

/-- A writer method on a value `v` whose attributes are `ds`. -/
def runWriter (T : Tables C W R) (m : W) (arg : Option String) (v : Val C)
    (ds : List (String × WDen C W)) : Except PyErr (List Xml) :=
  match T.wm m arg with
  | .bad e => .error e
  | .node acc fixed attrs empty items =>
    if (match acc with | some c => isInst T c v | none => true) = false then .error .assertionError
    else
      match tagOf fixed arg with
      | none => .error .typeError
      | some tag =>
        match collect (attrs.map (writeAttr ds)) with
        | .error e => .error e
        | .ok as =>
          if empty && ds.isEmpty then .ok [.leaf tag [] ""]
          else
            match collect (items.map (writeItem T ds)) with
            | .error e => .error e
            | .ok ks => .ok [.node tag as ks]
  | .ref acc fixed =>
    match v with
    | .ref r =>
      if (match acc with | some c => decide (r.cls = c) | none => true) = false then
        .error .assertionError
      else
        match tagOf fixed arg with
        | none => .error .typeError
        | some tag =>
          match enumToXml ⟨"IdentifiableSubTypes", r.dest⟩ defaultVersion with
          | .ok d => .ok [.leaf tag [("DEST", d)] r.value]
          | .error e => .error e
    | _ => .error .assertionError
  | .leaf acc tag attrs field miss =>
    if isInst T acc v = false then .error .assertionError
    else
      match collect (attrs.map (writeAttr ds)) with
      | .error e => .error e
      | .ok as =>
        match field with
        | none => .ok [.leaf tag as ""]
        | some f =>
          match dictGet ds f with
          | none => .error miss
          | some d =>
            match Fmt.plain.run d.val with
            | .ok s => .ok [.leaf tag as s]
            | .error e => .error e
  | .mixed acc fixed attrs field alts =>
    if isInst T acc v = false then .error .assertionError
    else
      match tagOf fixed arg with
      | none => .error .typeError
      | some tag =>
        match collect (attrs.map (writeAttr ds)) with
        | .error e => .error e
        | .ok as =>
          match dictGet ds field with
          | none => .ok [.mixed tag as []]
          | some d =>
            match collect (d.elems.map (writePart T alts)) with
            | .error e => .error e
            | .ok ps => .ok [.mixed tag as ps]

mutual
/-- What each writer method does with a value. -/
def wden (T : Tables C W R) : Val C → WDen C W
  | .obj c fs =>
    let ds := wdenFields T fs
    .mk (.obj c fs) (fun m arg => runWriter T m arg (.obj c fs) ds) ds []
  | .list vs => .mk (.list vs) (fun m arg => runWriter T m arg (.list vs) []) [] (wdenList T vs)
  | .str s => .mk (.str s) (fun m arg => runWriter T m arg (.str s) []) [] []
  | .bool b => .mk (.bool b) (fun m arg => runWriter T m arg (.bool b) []) [] []
  | .num n => .mk (.num n) (fun m arg => runWriter T m arg (.num n) []) [] []
  | .numval n => .mk (.numval n) (fun m arg => runWriter T m arg (.numval n) []) [] []
  | .enum e => .mk (.enum e) (fun m arg => runWriter T m arg (.enum e) []) [] []
  | .limit n e => .mk (.limit n e) (fun m arg => runWriter T m arg (.limit n e) []) [] []
  | .ref r => .mk (.ref r) (fun m arg => runWriter T m arg (.ref r) []) [] []
def wdenFields (T : Tables C W R) : List (String × Val C) → List (String × WDen C W)
  | [] => []
  | (k, v) :: rest => (k, wden T v) :: wdenFields T rest
def wdenList (T : Tables C W R) : List (Val C) → List (WDen C W)
  | [] => []
  | v :: rest => wden T v :: wdenList T rest
end

/-- `writer.method(value, arg)`: the elements written. -/
def writeWith (T : Tables C W R) (m : W) (arg : Option String) (v : Val C) : Except PyErr (List Xml) :=
  (wden T v).write m arg

/-! ### Meaning of the reader methods -/

/-- A parsed element with what each reader method makes of it.  `text` and `tail` are as in
ElementTree: the text before the first child and after the element (`none` if empty). -/
inductive RDen (C R : Type) where
  | mk (tag : String) (attrs : Attrs) (text : Option String) (tail : Option String)
      (read : R → Except PyErr (Val C)) (kids : List (RDen C R))

namespace RDen
def tag : RDen C R → String | .mk t _ _ _ _ _ => t
def attrs : RDen C R → Attrs | .mk _ a _ _ _ _ => a
def text : RDen C R → Option String | .mk _ _ x _ _ _ => x
def tail : RDen C R → Option String | .mk _ _ _ x _ _ => x
def read : RDen C R → R → Except PyErr (Val C) | .mk _ _ _ _ r _ => r
def kids : RDen C R → List (RDen C R) | .mk _ _ _ _ _ k => k
end RDen

/-- Value of a text; `none` is Python's `None`. -/
def Conv.run : Conv → Option String → Except PyErr (Option (Val C))
  | .text, t => .ok (t.map .str)
  | .str, t => .ok (some (.str (t.getD "None")))
  | .enum cls, some t =>
    match xmlToEnum cls t defaultVersion with
    | .ok m => .ok (some (.enum m))
    | .error e => .error e
  | .enum _, none => .error .keyError
  | .boolean, some t =>
    if t = "true" ∨ t = "1" then .ok (some (.bool true))
    else if t = "false" ∨ t = "0" then .ok (some (.bool false))
    else .error .parseError
  | .boolean, none => .error .parseError
  | .number, some t =>
    match readNumber t.toList with
    | .ok n => .ok (some (.num n))
    | .error e => .error e
  | .integer, some t =>
    match readInteger t.toList with
    | .ok n => .ok (some (.num (.int n)))
    | .error e => .error e
  | .int, some t =>
    match pyInt t.toList with
    | some n => .ok (some (.num (.int n)))
    | none => .error .valueError
  | .float, some t =>
    match pyFloat t.toList with
    | some f => .ok (some (.num (.float f)))
    | none => .error .valueError
  | .posInt, some t =>
    match positiveIntegerOfText t.toList with
    | .ok n => .ok (some (.num (.int n)))
    | .error e => .error e
  | .numVal, some t =>
    match numericalValueOfText t.toList with
    | .ok ⟨n, .default⟩ => .ok (some (.num n))
    | .ok n => .ok (some (.numval n))
    | .error e => .error e
  | .numPlain, some t =>
    match numericalValueOfText t.toList with
    | .ok n => .ok (some (.num n.value))
    | .error e => .error e
  | .intOrText, some t =>
    match pyInt t.toList with
    | some n => .ok (some (.num (.int n)))
    | none => .ok (some (.str t))
  | .int0OrText, some t =>
    match pyInt0 t.toList with
    | some n => .ok (some (.num (.int n)))
    | none => .ok (some (.str t))
  | .castFloat, some t =>
    match readNumber t.toList with
    | .ok n => .ok (some (.num (.float (toFloat n))))
    | .error e => .error e
  | _, none => .error .typeError

/-- First branch whose tag fits. -/
def pickTag (tag : String) : RAlts R → Option (RAtom R)
  | [] => none
  | (t, a) :: rest => if t = none ∨ t = some tag then some a else pickTag tag rest

/-- `_read_limit` (reader.py 1254-1262). -/
def readLimit (k : RDen C R) : Except PyErr (Option (Val C)) :=
  match k.text with
  | none => .error .typeError
  | some t =>
    let interval : Except PyErr Member :=
      match dictGet k.attrs "INTERVAL-TYPE" with
      | none => .ok ⟨"IntervalType", "CLOSED"⟩
      | some i => xmlToEnum "IntervalType" i defaultVersion
    match interval, readNumber t.toList with
    | .ok m, .ok n => .ok (some (.limit n m))
    | .error e, _ => .error e
    | _, .error e => .error e

/-- One element. -/
def readAtom (k : RDen C R) : RAtom R → Except PyErr (Option (Val C))
  | .conv c => c.run k.text
  | .meth m =>
    match k.read m with
    | .ok v => .ok (some v)
    | .error e => .error e
  | .limit => readLimit k

/-- One element through the branches: `none` if nothing is stored. -/
def readCall (alts : RAlts R) (miss : Option PyErr) (k : RDen C R) :
    Except PyErr (List (Option (Val C))) :=
  match pickTag k.tag alts with
  | some a =>
    match readAtom k a with
    | .ok v => .ok [v]
    | .error e => .error e
  | none =>
    match miss with
    | none => .ok []
    | some e => .error e

/-- `elements.get(tag)` (reader.py 69-88): the first child with the tag. -/
def childOf (tag : String) (kids : List (RDen C R)) : Option (RDen C R) :=
  (kids.filter (fun k => k.tag = tag)).head?

/-- The element below a child that is read. -/
def Inner.get (i : Inner) (k : RDen C R) : Option (RDen C R) :=
  match i with
  | .self => some k
  | .first => k.kids.head?
  | .tag t => childOf t k.kids

/-- One element of a list; a `None` in a list does not occur. -/
def readElem (alts : RAlts R) (miss : Option PyErr) (k : RDen C R) : Except PyErr (List (Val C)) :=
  match readCall alts miss k with
  | .ok [some v] => .ok [v]
  | .ok [] => .ok []
  | .ok _ => .error .notImplemented
  | .error e => .error e

/-- Values of a list. -/
def readList (alts : RAlts R) (miss : Option PyErr) (ks : List (RDen C R)) :
    Except PyErr (List (Val C)) :=
  collect (ks.map (readElem alts miss))

/-- Data collected for the constructor call: argument ↦ value or `None`. -/
abbrev Data (C : Type) := List (String × Option (Val C))

/-- `_read_admin_data_sdg`, `_read_admin_data_sd` (reader.py 562-577): a group without a name or
without an entry, and an entry without a name raise.  What is read is left out. -/
def readSdg (k : RDen C R) : Except PyErr (List Unit) :=
  match dictGet k.attrs "GID" with
  | none => .error .keyError
  | some _ =>
    match childOf "SD" k.kids with
    | none => .error .attributeError
    | some sd =>
      match dictGet sd.attrs "GID" with
      | none => .error .keyError
      | some _ => .ok []

/-- `_read_admin_data`, `_read_admin_data_sdgs` (reader.py 537-560): without SDGS the length of
`None` is asked for.  What is read is left out. -/
def readAdmin (k : RDen C R) : Except PyErr (List Unit) :=
  match childOf "SDGS" k.kids with
  | none => .error .typeError
  | some s => collect ((s.kids.filter fun k => k.tag = "SDG").map readSdg)

/-- One statement. -/
def readItem (attrs : Attrs) (text : Option String) (kids : List (RDen C R)) :
    RItem R → Except PyErr (Data C)
  | .text key c =>
    match c.run text with
    | .ok v => .ok [(key, v)]
    | .error e => .error e
  | .noKids e => if kids.isEmpty then .ok [] else .error e
  | .attr name key c req =>
    match dictGet attrs name with
    | none => if req then .error .keyError else .ok []
    | some t =>
      match c.run (some t) with
      | .ok v => .ok [(key, v)]
      | .error e => .error e
  | .required tag key =>
    match childOf tag kids with
    | none => .error .parseError
    | some k => .ok [(key, k.text.map .str)]
  | .one tag key inner alts miss catchKey =>
    match childOf tag kids with
    | none => .ok []
    | some k =>
      match inner.get k with
      | none => .ok []
      | some k' =>
        match readCall alts miss k' with
        | .ok vs => .ok (vs.map fun v => (key, v))
        | .error e => if catchKey ∧ e = .keyError then .ok [] else .error e
  | .many tag key alts miss max =>
    match childOf tag kids with
    | none => .ok []
    | some k =>
      match readList alts miss k.kids with
      | .error e => .error e
      | .ok vs =>
        match max with
        | some n => if vs.length > n then .error .parseError else .ok [(key, some (.list vs))]
        | none => .ok [(key, some (.list vs))]
  | .flat key alts miss =>
    match readList alts miss kids with
    | .error e => .error e
    | .ok vs => .ok [(key, some (.list vs))]
  | .choice key alts req =>
    match alts.filterMap (fun a => (childOf a.1 kids).map (fun k => (k, a.2))) with
    | [] => if req then .error .parseError else .ok []
    | [(k, a)] =>
      match readAtom k a with
      | .ok v => .ok [(key, v)]
      | .error e => .error e
    | _ => .error .parseError
  -- the constructor (element.py 231-245) ignores `admin_data`, so no argument is recorded
  | .admin =>
    match childOf "ADMIN-DATA" kids with
    | none => .ok []
    | some k =>
      match readAdmin k with
      | .ok _ => .ok []
      | .error e => .error e

/-- Shallow type test of a constructor argument. -/
def fitsS : STy C → Val C → Bool
  | .str, .str _ => true
  | .strNotInt, .str _ => true
  | .alignment, .str s => alignmentMatch s.toList
  | .format, .str s => formatMatch s.toList
  | .bool, .bool _ => true
  | .int, .num (.int _) => true
  | .nat, .num (.int i) => 0 ≤ i
  | .float, .num (.float _) => true
  | .castFloat, .num (.float _) => true
  | .numFloat, .num _ => true
  | .radix, .numval _ => true
  | .enum c, .enum m => m.cls = c
  | .member c, .enum m => m.cls = c
  | .limit, .limit _ _ => true
  | .ref c, .ref r => r.cls = c
  | .refTo c _, .ref r => r.cls = c
  | .cls c, .obj c' _ => c = c'
  | _, _ => false

/-- Value an attribute gets from a constructor argument: `None` and the empty list leave it
unset. -/
def normal : Option (Val C) → Option (Val C)
  | some (.list []) => none
  | v => v

/-- Shallow type test by shape. -/
def fits (f : Field C) : Val C → Bool
  | .list vs => f.shape ≠ .one && vs.all fun v => f.alts.any fun a => fitsS a v
  | v => f.shape = .one && f.alts.any fun a => fitsS a v

/-- Last entry for a key: a later assignment to the same key replaces the earlier one. -/
def lastOf (data : Data C) (k : String) : Option (Option (Val C)) := dictGet data.reverse k

/-- The argument for an attribute is missing, `None`, empty or fits. -/
def argOk (data : Data C) (f : Field C) : Bool :=
  match normal ((lastOf data f.param).getD none) with
  | none => true
  | some v => fits f v

/-- The argument is of the right type, but its value is not accepted: a negative number
(`_set_attr_positive_int`, base.py 146-154) or a string that does not match the pattern
(`_assign_int_or_str_pattern`, base.py 73-86), both of which raise ValueError. -/
def badValue (data : Data C) (f : Field C) : Bool :=
  match f.alts, lastOf data f.param with
  | [.nat], some (some (.num (.int i))) => i < 0
  | [.int, .alignment], some (some (.str s)) => !alignmentMatch s.toList
  | [.format], some (some (.str s)) => !formatMatch s.toList
  | _, _ => false

/-- `cls(**data)`.  An argument the class does not know and a required argument that is missing
raise TypeError; so does a value of a wrong type (simplification: the constructors' type checks
look at the value only, not below it, and some constructors check less), and a value that is not
accepted raises ValueError (simplification: also if another argument before it has a wrong type;
no reader method passes one, see C50). -/
def buildWith (s : List (Field C)) (c : C) (data : Data C) : Except PyErr (Val C) :=
  if data.all (fun kv => s.any fun f => f.param = kv.1) = false then .error .typeError
  else if s.any (fun f => f.req && (lastOf data f.param).isNone) then .error .typeError
  else if s.all (argOk data) = false then
    .error (if s.any (badValue data) then .valueError else .typeError)
  else .ok (.obj c (s.filterMap fun f =>
    (normal ((lastOf data f.param).getD none)).map fun v => (f.attr, v)))

/-- `cls(**data)` with the arguments the class has. -/
def build (T : Tables C W R) (c : C) (data : Data C) : Except PyErr (Val C) :=
  buildWith (T.ctor c) c data

/-- One child of mixed content, and the text after it: the reader appends the element's leading
text once more instead of the tail (reader.py 874-875, 934-935, 995-996, 1020-1021, 1125-1126),
and `append(None)` raises TypeError.  Simplification: for the inline elements that are read, appended
and then refused (`if` instead of `elif` at 869, 926, 981, 1012) the ParseError at the end stands
for whatever is raised, TypeError if `append` refuses them. -/
def readPart (text : Option String) (tags : List (String × R)) (skipped : List String)
    (k : RDen C R) : Except PyErr (List (Val C)) :=
  let after : Except PyErr (List (Val C)) :=
    match k.tail, text with
    | none, _ => .ok []
    | some _, some t => .ok [.str t]
    | some _, none => .error .typeError
  match dictGet tags k.tag with
  | some m =>
    match k.read m with
    | .error e => .error e
    | .ok v =>
      match after with
      | .error e => .error e
      | .ok vs => .ok (v :: vs)
  | none => if k.tag ∈ skipped then after else .error .parseError

/-- A reader method. -/
def runReader (T : Tables C W R) (m : R) (tag : String) (attrs : Attrs) (text : Option String)
    (kids : List (RDen C R)) : Except PyErr (Val C) :=
  match T.rm m tag with
  | .bad e => .error e
  | .node c items =>
    match collect (items.map (readItem attrs text kids)) with
    | .error e => .error e
    | .ok data => build T c data
  | .ref cls dest =>
    match dictGet attrs "DEST" with
    | none => .error .parseError
    | some d =>
      match dest with
      | some d' =>
        if d = d' then
          match construct cls (text.getD "") .omitted with
          | .ok r => .ok (.ref r)
          | .error e => .error e
        else .error .parseError
      | none =>
        match xmlToEnum "IdentifiableSubTypes" d defaultVersion with
        | .error e => .error e
        | .ok dm =>
          match construct cls (text.getD "") (.given (.enum dm.cls dm.name)) with
          | .ok r => .ok (.ref r)
          | .error e => .error e
  | .mixed c items key tags skipped =>
    match collect (items.map (readItem attrs text kids)) with
    | .error e => .error e
    | .ok data =>
      match collect (kids.map (readPart text tags skipped)) with
      | .error e => .error e
      | .ok vs =>
        build T c (data ++ [(key, some (.list ((match text with
          | some t => [.str t]
          | none => []) ++ vs)))])

/-- The text before the first child element (`none` if empty). -/
def leadText : List Dom → Option String
  | .text s :: _ => if s = "" then none else some s
  | _ => none

mutual
/-- What each reader method makes of an element; `tail` is the text after it. -/
def rden (T : Tables C W R) (tail : Option String) : Dom → Option (RDen C R)
  | .elem tag attrs ds =>
    let kids := rdenKids T ds
    some (.mk tag attrs (leadText ds) tail
      (fun m => runReader T m tag attrs (leadText ds) kids) kids)
  | .text _ => none
def rdenKids (T : Tables C W R) : List Dom → List (RDen C R)
  | [] => []
  | d :: ds =>
    match rden T (leadText ds) d with
    | some k => k :: rdenKids T ds
    | none => rdenKids T ds
end

/-- `reader.method(elem)`. -/
def readWith (T : Tables C W R) (m : R) (d : Dom) : Except PyErr (Val C) :=
  match rden T none d with
  | some k => k.read m
  | none => .error .attributeError

end Verif.Codec
