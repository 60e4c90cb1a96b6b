import Verif.Codec.History
import Verif.Codec.PackageSpec
/-
Iterations over the elements of packages and the ports of components (src/autosar/xml/element.py; all line
numbers without a file are of that file).  The methods are generators: nothing happens before the first item is
asked for, and the lists they go through may grow while they are suspended.
-/
namespace Verif.Codec.Select
open Verif.Py Verif.Codec Verif.Codec.Find Verif.Codec.History
open Verif.Codec.Spec (classOf)

/-- What is iterated over. -/
inductive Sel where
  /-- `package.filter(*names)` (2910-2917) -/
  | names (ns : List (Option String))
  /-- `package.filter_regex(pattern)` (2919-2932) with a pattern or the text of one.  Simplification: the
  pattern is given by the names it matches (`re` is not modelled). -/
  | regex (m : String → Bool)
  /-- `package.filter_regex(pattern)` with anything else (`TypeError`, 2929), or with a text of which `re.compile`
  makes no pattern (2925; its exception is the argument here) -/
  | wrong (e : PyErr)
  /-- `component.provide_ports`, `require_ports`, `pr_ports` (4890-4915), by the class of the ports -/
  | kind (c : Cls)

/-- The condition of the `if` in the loops (2916, 2931, 4896, 4905, 4914).  `regex.match(None)` raises
`TypeError`.  The classes of ports have no subclasses. -/
def test : Sel → Val Cls → Except PyErr Bool
  | .names ns, v => .ok (decide (elemName v ∈ ns))
  | .regex m, v =>
    match elemName v with
    | none => .error .typeError
    | some n => .ok (m n)
  | .wrong e, _ => .error e
  | .kind c, v => .ok (decide (classOf v = some c))

/-- Where a generator is suspended: before the first item, after the items with smaller indices, at its end. -/
inductive Gen where
  | new
  | pos (i : Nat)
  | done
deriving DecidableEq

/-- What `next(generator)` does. -/
inductive Answer where
  | item (v : Val Cls)
  /-- `StopIteration` -/
  | stop
  | raised (e : PyErr)

/-- The loop, from the item with the index on. -/
def scan (s : Sel) (i : Nat) : List (Val Cls) → Answer × Gen
  | [] => (.stop, .done)
  | v :: rest =>
    match test s v with
    | .error e => (.raised e, .done)
    | .ok true => (.item v, .pos (i + 1))
    | .ok false => scan s (i + 1) rest

/-- `next(generator)`, when the list is `l` (2915-2917, 2923-2932, 4895-4897, 4904-4906, 4913-4915).  An exception
ends the generator. -/
def next (s : Sel) (l : List (Val Cls)) : Gen → Answer × Gen
  | .new =>
    match s with
    | .wrong e => (.raised e, .done)
    | _ => scan s 0 l
  | .pos i => scan s i (l.drop i)
  | .done => (.stop, .done)

/-- Objects with a list to iterate over, and calls that change them. -/
structure Kind (S A : Type) where
  items : S → List (Val Cls)
  act : A → S → S

/-- Packages: `append` (2845-2867) of elements and packages; it raises an exception and changes nothing if the name
is taken. -/
def packages : Kind Pkg Thing where
  items := Pkg.elements
  act := put

/-- Components: the `append*` methods, by name (C60); a call that raises an exception changes nothing. -/
def components : Kind (Val Cls) (String × Val Cls) where
  items := fun v => members v "ports"
  act := fun p v =>
    match v with
    | .obj c fs =>
      match choose c p.1 p.2 with
      | .error _ => .obj c fs
      | .ok (a, y) => withPart a y (.obj c fs)
    | v => v

/-- A step of a program that uses the object: a call, the start of another iteration, or the next item of the
iteration started as number `k`. -/
inductive Step (A : Type) where
  | act (a : A)
  | start (s : Sel)
  | next (k : Nat)

/-- The object and its iterations. -/
structure State (S : Type) where
  obj : S
  gens : List (Sel × Gen)

/-- The state after the step, and the answer of the iteration that is asked. -/
def step {S A : Type} (K : Kind S A) (st : State S) : Step A → State S × List (Nat × Answer)
  | .act a => ({ st with obj := K.act a st.obj }, [])
  | .start s => ({ st with gens := st.gens ++ [(s, .new)] }, [])
  | .next k =>
    match st.gens[k]? with
    | none => (st, [])
    | some (s, g) =>
      ({ st with gens := st.gens.set k (s, (next s (K.items st.obj) g).2) },
        [(k, (next s (K.items st.obj) g).1)])

def run {S A : Type} (K : Kind S A) (st : State S) : List (Step A) → State S × List (Nat × Answer)
  | [] => (st, [])
  | s :: rest => ((run K (step K st s).1 rest).1, (step K st s).2 ++ (run K (step K st s).1 rest).2)

end Verif.Codec.Select
