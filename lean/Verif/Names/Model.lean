import Verif.Num.Dec
/-
`make_unique_name_in_list` (src/autosar/xml/element.py 304-331) and the lists that use it.
-/
namespace Verif.Names
open Verif.Num

/-- A short name. -/
abbrev Name := List Char

/-- Which characters the regular expression class `\d` matches, and the digit value `int`
gives them.  Python uses the Unicode database; the model only relies on the decimal ASCII
digits having their usual values and on '_' not being a digit. -/
structure Digits where
  val : Char → Option Nat
  ascii : ∀ d, d < 10 → val (Nat.digitChar d) = some d
  underscore : val '_' = none

/-- ASCII digits only. -/
def asciiDigits : Digits where
  val c := if '0' ≤ c ∧ c ≤ '9' then some (c.toNat - '0'.toNat) else none
  ascii := by decide
  underscore := by decide

/-- The longest run of digits at the front: values and remainder (`\d+`, greedy). -/
def takeDigits (D : Digits) : List Char → List Nat × List Char
  | [] => ([], [])
  | c :: cs =>
    match D.val c with
    | none => ([], c :: cs)
    | some d => ((d :: (takeDigits D cs).1), (takeDigits D cs).2)

/-- The fixed end of the expression, `_(\d+)`, and `int(result.group(1))`.
(`int` of more than 4300 digits raises ValueError in recent Python; not modelled.) -/
def matchSuffix (D : Digits) : List Char → Option Nat
  | '_' :: cs =>
    match (takeDigits D cs).1 with
    | [] => none
    | d :: ds => some (ofDigs 10 (d :: ds))
  | _ => none

/-! ### The part of the expression made from the base name

`base_name` goes into the expression unescaped (element.py 316).  The model covers literal
characters, '.', and the postfix operators '*', '+', '?'. -/

inductive Atom where
  | lit (c : Char)
  /-- '.' : any character but a newline -/
  | any
deriving DecidableEq, Repr

inductive Quant where
  | one | star | plus | opt
deriving DecidableEq, Repr

/-- Characters with a meaning in expressions that the model does not cover. -/
def unsupported : List Char := ['\\', '^', '$', '|', '(', ')', '[', ']', '{', '}']

def operators : List Char := ['*', '+', '?']

/-- The quantifier after an atom, and what follows it. -/
def quantOf : List Char → Quant × List Char
  | '*' :: cs => (.star, cs)
  | '+' :: cs => (.plus, cs)
  | '?' :: cs => (.opt, cs)
  | cs => (.one, cs)

theorem quantOf_length (cs : List Char) : (quantOf cs).2.length ≤ cs.length := by
  unfold quantOf; split <;> simp

/-- `re.compile` of the base name; `none`: outside the covered subset (or an error). -/
def compile : List Char → Option (List (Atom × Quant))
  | [] => some []
  | c :: cs =>
    if c ∈ unsupported ∨ c ∈ operators then none
    else
      have : (quantOf cs).2.length < (c :: cs).length := by
        have := quantOf_length cs; simp; omega
      match compile (quantOf cs).2 with
      | none => none
      | some items => some ((if c = '.' then .any else .lit c, (quantOf cs).1) :: items)
termination_by s => s.length

def Atom.matches (a : Atom) (c : Char) : Bool :=
  match a with
  | .lit d => c = d
  | .any => c ≠ '\n'

/-- Remainders after `a*`, longest match first. -/
def starRests (a : Atom) : List Char → List (List Char)
  | [] => [[]]
  | c :: cs => if a.matches c then starRests a cs ++ [c :: cs] else [c :: cs]

/-- Remainders after one item, in the order the backtracking matcher tries them. -/
def itemRests (a : Atom) : Quant → List Char → List (List Char)
  | .one, c :: cs => if a.matches c then [cs] else []
  | .one, [] => []
  | .star, s => starRests a s
  | .plus, c :: cs => if a.matches c then starRests a cs else []
  | .plus, [] => []
  | .opt, c :: cs => if a.matches c then [cs, c :: cs] else [c :: cs]
  | .opt, [] => [[]]

/-- Remainders after all items. -/
def rests : List (Atom × Quant) → List Char → List (List Char)
  | [], s => [s]
  | (a, q) :: items, s => (itemRests a q s).flatMap (rests items)

/-- `expr.match(name)` (anchored at the front only) and its index. -/
def matchIndex (D : Digits) (items : List (Atom × Quant)) (name : Name) : Option Nat :=
  (rests items name).findSome? (matchSuffix D)

/-! ### The function -/

/-- Variables of the loop (element.py 313-326): `has_index`, `highest_index`, and the
position of `unpatched_elem`. -/
structure Scan where
  hasIndex : Bool := false
  highest : Nat := 0
  unpatched : Option Nat := none
deriving DecidableEq, Repr

/-- One turn of the loop (element.py 318-325). -/
def scanStep (m : Name → Option Nat) (base : Name) (i : Nat) (name : Name) (st : Scan) : Scan :=
  match m name with
  | some k => { st with hasIndex := true, highest := max st.highest k }
  | none => if name = base then { st with unpatched := some i } else st

/-- The loop (element.py 317-325). -/
def scan (m : Name → Option Nat) (base : Name) : Nat → List Name → Scan → Scan
  | _, [], st => st
  | i, name :: rest, st => scan m base (i + 1) rest (scanStep m base i name st)

/-- `'_'.join([base, str(k)])`. -/
def indexed (base : Name) (k : Nat) : Name := base ++ '_' :: decStr k

/-- The rest of the function (element.py 326-331): the list after the renaming, and the
returned name. -/
def finish (names : List Name) (base : Name) (st : Scan) : List Name × Name :=
  ((match st.unpatched with
    | some i => names.set i ((names.getD i []) ++ ['_', '0'])
    | none => names),
   if st.hasIndex = true ∨ st.unpatched ≠ none then indexed base (st.highest + 1) else base)

/-- `make_unique_name_in_list(elements, base_name)` (element.py 304-331), on the list of
element names (the list must not contain one element object twice).  `none`: the base name
is not covered by `compile`. -/
def makeUnique (D : Digits) (names : List Name) (base : Name) : Option (List Name × Name) :=
  (compile base).map fun items => finish names base (scan (matchIndex D items) base 0 names {})

/-! ### Events and access points -/

/-- What happens to the event names of a behaviour. -/
inductive EventOp where
  /-- any `create_*_event` that succeeds, with its explicit or default event name
  (element.py 8069-8449; e.g. 8091-8094) -/
  | create (base : Name)
  /-- one that raises after the name was made unique (e.g. bad keyword arguments, or an
  unknown mode, element.py 8382-8420) -/
  | failed (base : Name)
deriving DecidableEq, Repr

/-- Effect on the list of event names. -/
def eventStep (D : Digits) (names : List Name) : EventOp → Option (List Name)
  | .create b => (makeUnique D names b).map fun r => r.1 ++ [r.2]
  | .failed b => (makeUnique D names b).map fun r => r.1

/-- A history of event creations. -/
def eventRun (D : Digits) : List Name → List EventOp → Option (List Name)
  | names, [] => some names
  | names, op :: ops =>
    match eventStep D names op with
    | none => none
    | some names' => eventRun D names' ops

/-- `RunnableEntity.append_<kind>(element)` for the kinds that call the helper
(element.py 6943-7112): the generated name is discarded, the element keeps its own name. -/
def appendAccess (D : Digits) (names : List Name) (n : Name) : Option (List Name) :=
  (makeUnique D names n).map fun r => r.1 ++ [n]

/-- A history of appends to one of the lists. -/
def appendRun (D : Digits) : List Name → List Name → Option (List Name)
  | names, [] => some names
  | names, n :: ns =>
    match appendAccess D names n with
    | none => none
    | some names' => appendRun D names' ns

end Verif.Names
