import Verif.Py
/-
The implementation model and the type order for code generation:
src/autosar/model/implementation.py, src/autosar/model/element.py,
src/autosar/generator/type_generator.py.
-/
namespace Verif.Impl
open Verif.Py

/-- Object identity of model elements. -/
scoped notation "Oid" => Nat

/-! ### What the XML side offers -/

/-- The parts of a `SwDataDefPropsConditional` that are read: `base_type_ref`,
`impl_data_type_ref`, and `ptr_target_props` as target category and the references of its own
properties (implementation.py 118, 136, 253-257). -/
structure Props where
  baseRef : Option String := none
  implRef : Option String := none
  ptr : Option (Option String × Option (List (Option String × Option String))) := none
deriving DecidableEq, Repr

/-- The parts of an `ImplementationDataTypeElement` that are read (element.py 1883-1930).
`policy`: whether one of `array_impl_policy`, `array_size_handling`, `array_size_semantics` is
set. -/
structure SubElem where
  name : String
  category : Option String := none
  props : Option (List Props) := none
  arraySize : Option Nat := none
  policy : Bool := false
deriving DecidableEq, Repr

/-- An element found in the workspace.  `ref` is `str(element.ref())`. -/
inductive XElem where
  /-- `SwBaseType` -/
  | base (ref name : String) (native : Option String)
  /-- `ImplementationDataType` -/
  | impl (ref name : String) (category symbol emitter : Option String)
      (props : Option (List Props)) (subs : List SubElem)
  /-- any other class -/
  | other (ref cls : String)
deriving DecidableEq, Repr

def XElem.ref : XElem → String
  | .base r _ _ => r
  | .impl r _ _ _ _ _ _ => r
  | .other r _ => r

/-- The workspace: what `find` (`PackageCollection.find`, xml/element.py 3038-3053) finds, or the
exception that it or `ref()` of what is found raises. -/
structure Env where
  find : String → Except PyErr (Option XElem)

/-- What is found, if anything. -/
def Env.get (env : Env) (r : String) : Option XElem :=
  match env.find r with
  | .ok x => x
  | .error _ => none

instance : CoeFun Env fun _ => String → Option XElem := ⟨Env.get⟩

/-- A workspace where nothing raises. -/
def Env.of (f : String → Option XElem) : Env := ⟨fun r => .ok (f r)⟩

/-! ### Model elements (model/element.py) -/

/-- The data type of an array or record element: an embedded `ScalarType` or `RefType`
(implementation.py 172-200, 222-246). -/
inductive ElemType where
  | scalar (base : Oid)
  | ref (impl : Oid)
deriving DecidableEq, Repr

def ElemType.child : ElemType → Oid
  | .scalar b => b
  | .ref i => i

/-- `BaseType`, `ScalarType`, `RefType`, `ArrayType` (with its last element), `RecordType`,
`PointerType`.  Array and record elements: name, size, type; their own `ref` is the parent's
`ref`, a slash and the name. -/
inductive RObj where
  | base (ref name : String) (native : Option String)
  | scalar (ref name symbol : String) (emitter : Option String) (base : Oid)
  | refType (ref name symbol : String) (impl : Oid)
  | array (ref name symbol : String) (emitter : Option String) (elem : String × Nat × ElemType)
  | record (ref name symbol : String) (emitter : Option String) (elems : List (String × ElemType))
  | pointer (ref name symbol : String) (emitter : Option String) (target : Oid)
deriving DecidableEq, Repr

def RObj.ref : RObj → String
  | .base r _ _ => r
  | .scalar r _ _ _ _ => r
  | .refType r _ _ _ => r
  | .array r _ _ _ _ => r
  | .record r _ _ _ _ => r
  | .pointer r _ _ _ _ => r

/-- All model elements an element refers to. -/
def RObj.children : RObj → List Oid
  | .base .. => []
  | .scalar _ _ _ _ b => [b]
  | .refType _ _ _ i => [i]
  | .array _ _ _ _ (_, _, t) => [t.child]
  | .record _ _ _ _ es => es.map (·.2.child)
  | .pointer _ _ _ _ t => [t]

/-- `ImplementationModel` (implementation.py 34-37): the objects made so far, `data_types`
(reference ↦ object), `source_type_refs`. -/
structure State where
  objs : List RObj
  types : Dict Oid
  sources : List String
deriving Repr

def State.empty : State := ⟨[], [], []⟩

/-! ### Creation -/

/-- `str(ref)` of an optional reference: `None` becomes the text "None". -/
def refStr : Option String → String
  | some r => r
  | none => "None"

/-- `sw_data_def_props[0]`: TypeError on None, IndexError when empty -/
def first (ps : Option (List α)) : Except PyErr α :=
  match ps with
  | none => .error .typeError
  | some [] => .error .indexError
  | some (p :: _) => .ok p

/-- `symbol_name` default (model/element.py 53-56) -/
def symbolOf (name : String) (symbol : Option String) : String := symbol.getD name

/-- Creating an element requests other elements one after the other, may fail in between, and
finally makes the object from them.  `steps`: the references requested by `create_from_ref`, in
order, or the exception raised at that point; `finish`: the object, or the exception raised
after all requests. -/
structure Plan where
  steps : List (Except PyErr String)
  finish : List Oid → Except PyErr RObj

/-- The reference a VALUE or TYPE_REFERENCE sub-element requests (implementation.py 172-200,
222-246; other categories: 156, 217). -/
def subStep (s : SubElem) : Except PyErr String :=
  match s.category with
  | some "VALUE" => (first s.props).map fun p => refStr p.baseRef
  | some "TYPE_REFERENCE" => (first s.props).map fun p => refStr p.implRef
  | _ => .error .notImplemented

/-- The embedded type made for a sub-element from the object its reference gave. -/
def subType (s : SubElem) (o : Oid) : ElemType :=
  if s.category = some "VALUE" then .scalar o else .ref o

/-- Pair the sub-elements of a record with the objects obtained for them. -/
def recordElems : List SubElem → List Oid → List (String × ElemType)
  | s :: ss, o :: os => (s.name, subType s o) :: recordElems ss os
  | _, _ => []

/-- What follows after the element type of an array has been obtained (implementation.py
157-170, 182, 196): the size must be an int, each of the three policies is converted with an
enumeration that does not know the XML enumeration's members (ValueError), and any further
dimension fails because the size is asked of the reference text (AttributeError). -/
def finishArray (ref name : String) (symbol emitter : Option String) (subs : List SubElem)
    (s : SubElem) (o : Oid) : Except PyErr RObj :=
  match s.arraySize with
  | none => .error .assertionError
  | some n =>
    if s.policy then .error .valueError
    else if subs.length > 1 then .error .attributeError
    else .ok (.array ref name (symbolOf name symbol) emitter (s.name, n, subType s o))

/-- The branches of `create_from_element` (implementation.py 57-73) with
`_create_base_type` (102-110), `_create_scalar_type_from_element` (112-128),
`_create_ref_type_from_element` (130-142), `_create_array_type_from_element` (144-170),
`_create_struct_type_from_element` (202-220), `_create_ptr_type_from_element` (248-266). -/
def planOf : XElem → Plan
  | .other _ _ => ⟨[.error .notImplemented], fun _ => .error .notImplemented⟩
  | .base r n native => ⟨[], fun _ => .ok (.base r n native)⟩
  | .impl r n category symbol emitter props subs =>
    match category with
    | none => ⟨[.error .assertionError], fun _ => .error .assertionError⟩
    | some "VALUE" =>
      ⟨[(first props).map fun p => refStr p.baseRef], fun os =>
        match os with
        | o :: _ => .ok (.scalar r n (symbolOf n symbol) emitter o)
        | [] => .error .runtimeError⟩
    | some "TYPE_REFERENCE" =>
      ⟨[(first props).map fun p => refStr p.implRef], fun os =>
        match os with
        | o :: _ => .ok (.refType r n (symbolOf n symbol) o)
        | [] => .error .runtimeError⟩
    | some "ARRAY" =>
      match subs.getLast? with
      | none => ⟨[.error .indexError], fun _ => .error .indexError⟩
      | some s =>
        ⟨[subStep s], fun os =>
          match os with
          | o :: _ => finishArray r n symbol emitter subs s o
          | [] => .error .runtimeError⟩
    | some "STRUCTURE" =>
      ⟨subs.map subStep, fun os =>
        .ok (.record r n (symbolOf n symbol) emitter (recordElems subs os))⟩
    | some "DATA_REFERENCE" =>
      ⟨[match first props with
        | .error e => .error e
        | .ok p =>
          match p.ptr with
          | none => .error .attributeError
          | some (cat, pp) =>
            match cat with
            | some "VALUE" => (first pp).map fun q => refStr q.1
            | some "TYPE_REFERENCE" => (first pp).map fun q => refStr q.2
            | _ => .error .notImplemented], fun os =>
        match os with
        | o :: _ => .ok (.pointer r n (symbolOf n symbol) emitter o)
        | [] => .error .runtimeError⟩
    | some _ => ⟨[.error .notImplemented], fun _ => .error .notImplemented⟩

/-- Request the elements one after the other; `rec` is `create_from_ref(·, False)`. -/
def runSteps (rec : State → String → State × Except PyErr Oid) (st : State) :
    List (Except PyErr String) → State × Except PyErr (List Oid)
  | [] => (st, .ok [])
  | .error e :: _ => (st, .error e)
  | .ok r :: rest =>
    match rec st r with
    | (st1, .error e) => (st1, .error e)
    | (st1, .ok o) =>
      match runSteps rec st1 rest with
      | (st2, .error e) => (st2, .error e)
      | (st2, .ok os) => (st2, .ok (o :: os))

/-- `self.data_types[ref] = obj; return obj` -/
def State.add (st : State) (o : RObj) : State × Except PyErr Oid :=
  ({ st with objs := st.objs ++ [o], types := dictSet st.types o.ref st.objs.length },
   .ok st.objs.length)

/-- `source_type_refs.add(ref)`: a set -/
def State.addSource (st : State) (r : String) : State :=
  if st.sources.contains r then st else { st with sources := r :: st.sources }

/-- `create_from_element` (implementation.py 48-74). -/
def createFromElement (rec : State → String → State × Except PyErr Oid) (st : State) (x : XElem)
    (isSource : Bool) : State × Except PyErr Oid :=
  match dictGet st.types x.ref with
  | some o => (st, .ok o)
  | none =>
    let st1 := if isSource then st.addSource x.ref else st
    let plan := planOf x
    match runSteps rec st1 plan.steps with
    | (st2, .error e) => (st2, .error e)
    | (st2, .ok os) =>
      match plan.finish os with
      | .error e => (st2, .error e)
      | .ok o => st2.add o

/-- `create_from_ref` (implementation.py 39-46).  The first argument is the number of nested
calls Python allows; beyond it RecursionError is raised. -/
def createFromRef : Nat → Env → State → String → Bool → State × Except PyErr Oid
  | 0, _, st, _, _ => (st, .error .recursionError)
  | n + 1, env, st, r, isSource =>
    match env.find r with
    | .error e => (st, .error e)
    | .ok none => (st, .error .keyError)
    | .ok (some x) => createFromElement (fun s q => createFromRef n env s q false) st x isSource

/-! ### Dependency trees and creation order -/

/-- `Node` (implementation.py 12-25). -/
inductive Tree where
  | node (data : Oid) (children : List Tree)
deriving Repr

def Tree.data : Tree → Oid
  | .node d _ => d

def Tree.children : Tree → List Tree
  | .node _ cs => cs

/-- The model elements that become children of a tree node, in order (`_create_tree_node`
implementation.py 268-284, `_process_array_or_record_element_tree_node` 286-292): nothing for
scalar elements of arrays and records; pointers raise NotImplementedError. -/
def treeChildren : RObj → Except PyErr (List Oid)
  | .base .. => .ok []
  | .scalar _ _ _ _ b => .ok [b]
  | .refType _ _ _ i => .ok [i]
  | .array _ _ _ _ (_, _, .scalar _) => .ok []
  | .array _ _ _ _ (_, _, .ref i) => .ok [i]
  | .record _ _ _ _ es => .ok (es.filterMap fun e =>
      match e.2 with
      | .scalar _ => none
      | .ref i => some i)
  | .pointer .. => .error .notImplemented

/-- A loop that stops at the first exception. -/
def mapE (f : α → Except PyErr β) : List α → Except PyErr (List β)
  | [] => .ok []
  | a :: as =>
    match f a with
    | .error e => .error e
    | .ok b =>
      match mapE f as with
      | .error e => .error e
      | .ok bs => .ok (b :: bs)

/-- `_create_tree_node` (implementation.py 268-284).  The first argument bounds the depth; it is
called with the number of objects, which suffices because every object is made after the ones it
refers to (Python's own recursion limit is not modelled here). -/
def treeOf : Nat → List RObj → Oid → Except PyErr Tree
  | 0, _, _ => .error .recursionError
  | n + 1, objs, o =>
    match objs[o]? with
    | none => .error .runtimeError
    | some obj =>
      match treeChildren obj with
      | .error e => .error e
      | .ok cs =>
        match mapE (treeOf n objs) cs with
        | .error e => .error e
        | .ok ts => .ok (.node o ts)

/-- Insert into a sorted list. -/
def insertS (a : String) : List String → List String
  | [] => [a]
  | b :: bs => if a < b then a :: b :: bs else b :: insertS a bs

/-- `sorted` on texts -/
def sortS : List String → List String
  | [] => []
  | a :: as => insertS a (sortS as)

/-- `gen_type_dependency_trees` (implementation.py 76-84). -/
def genTrees (st : State) : Except PyErr (List Tree) :=
  mapE (fun r =>
    match dictGet st.types r with
    | none => .error .keyError
    | some o => treeOf st.objs.length st.objs o) (sortS st.sources)

mutual
def Tree.size : Tree → Nat
  | .node _ cs => 1 + Tree.sizes cs
def Tree.sizes : List Tree → Nat
  | [] => 0
  | t :: ts => t.size + Tree.sizes ts
end

theorem Tree.sizes_append (a b : List Tree) : sizes (a ++ b) = sizes a + sizes b := by
  induction a with
  | nil => simp [sizes]
  | cons x xs ih => simp [sizes, ih]; omega

theorem Tree.sizes_reverse (a : List Tree) : sizes a.reverse = sizes a := by
  induction a with
  | nil => rfl
  | cons x xs ih => simp [sizes, sizes_append, ih]; omega

/-- The loop of `get_type_creation_order` (implementation.py 92-99) from a queue; the result
list in the order of appending. -/
def bfs : List Tree → List Tree
  | [] => []
  | t :: q => t :: bfs (q ++ t.children.reverse)
termination_by q => Tree.sizes q
decreasing_by
  cases t
  simp only [Tree.children];
  simp only [Tree.sizes_append, Tree.sizes_reverse, Tree.sizes, Tree.size]; omega

/-- `get_type_creation_order` (implementation.py 86-100). -/
def creationOrder (root : Tree) : List Oid := ((bfs [root]).map Tree.data).reverse

/-- An empty text counts as absent. -/
def truthy : Option String → Bool
  | some s => s ≠ ""
  | none => false

/-- `str.upper` compared with "RTE"; no letter outside ASCII has an upper case form among these
three. -/
def isRte (s : String) : Bool := s.toList.map Char.toUpper == "RTE".toList

/-- The two filters of `gen_data_type_creation_order` (type_generator.py 81-87). -/
def emitterOk : Option String → Bool
  | none => true
  | some e => isRte e

def included : RObj → Bool
  | .base _ _ native => truthy native
  | .scalar _ _ _ e _ => emitterOk e
  | .refType .. => true
  | .array _ _ _ e _ => emitterOk e
  | .record _ _ _ e _ => emitterOk e
  | .pointer _ _ _ e _ => emitterOk e

/-- The loop of `gen_data_type_creation_order` (type_generator.py 75-89) over all nodes of all
trees; `seen` is `instance_refs`. -/
def dedup (objs : List RObj) (seen : List String) : List Oid → List Oid
  | [] => []
  | o :: os =>
    match objs[o]? with
    | none => dedup objs seen os
    | some obj =>
      if seen.contains obj.ref then dedup objs seen os
      else if included obj then o :: dedup objs (obj.ref :: seen) os
      else dedup objs (obj.ref :: seen) os

/-- `gen_data_type_creation_order` (type_generator.py 69-89). -/
def genOrder (st : State) : Except PyErr (List Oid) :=
  match genTrees st with
  | .error e => .error e
  | .ok ts => .ok (dedup st.objs [] (ts.map creationOrder).flatten)

/-! ### Type definitions -/

/-- What stands for a type in a C declaration: literal text or the name of another type. -/
inductive TypeText where
  | native (s : String)
  | named (o : Oid)
deriving DecidableEq, Repr

/-- `typedef` statements of the generated header. -/
inductive Decl where
  | typedef (name : String) (target : TypeText)
  | arrayTypedef (name : String) (target : TypeText) (size : Nat)
  | structTypedef (name : String) (members : List (String × TypeText))
deriving DecidableEq, Repr

/-- The type text for an array or record element (type_generator.py 121-131, 137-146): a base
type's native declaration if it has one, else its name; AttributeError if a scalar element's base
type is not a base type. -/
def elemText (objs : List RObj) : ElemType → Except PyErr TypeText
  | .ref i => .ok (.named i)
  | .scalar b =>
    match objs[b]? with
    | some (.base _ _ native) => .ok (if truthy native then .native (native.getD "") else .named b)
    | _ => .error .attributeError

/-- One round of `_gen_type_defs` (type_generator.py 105-117) with `_gen_array_type_def`
(120-132) and `_gen_record_type_def` (134-153). -/
def genDecl (objs : List RObj) (o : Oid) : Except PyErr Decl :=
  match objs[o]? with
  | none => .error .runtimeError
  | some (.base _ n native) => .ok (.typedef n (.native (native.getD "")))
  | some (.scalar _ n _ _ b) => .ok (.typedef n (.named b))
  | some (.refType _ n _ i) => .ok (.typedef n (.named i))
  | some (.array _ n _ _ (_, size, t)) => (elemText objs t).map fun x => .arrayTypedef n x size
  | some (.record _ n _ _ es) =>
    (mapE (fun e => (elemText objs e.2).map fun x => (e.1, x)) es).map fun ms => .structTypedef n ms
  | some (.pointer ..) => .error .notImplemented

/-- `_gen_type_defs(gen_data_type_creation_order())` (type_generator.py 96, 100-118). -/
def genTypeDefs (st : State) : Except PyErr (List Decl) :=
  match genOrder st with
  | .error e => .error e
  | .ok os => mapE (genDecl st.objs) os

end Verif.Impl
