import Verif.Impl.Model
/-
Specification side of C31 and C32: histories of requests, what a model element must look like,
and which types a C declaration mentions.
-/
namespace Verif.Impl.Spec
open Verif.Py Verif.Impl

/-- A request to the implementation model. -/
inductive Req where
  | byRef (r : String) (isSource : Bool)
  | byElement (x : XElem) (isSource : Bool)

/-- One request, with `limit` nested calls allowed. -/
def step (limit : Nat) (env : Env) (st : State) : Req → State × Except PyErr Oid
  | .byRef r s => createFromRef limit env st r s
  | .byElement x s => createFromElement (fun s q => createFromRef limit env s q false) st x s

/-- A history of requests; failed requests do not stop it. -/
def run (limit : Nat) (env : Env) (st : State) : List Req → State
  | [] => st
  | q :: qs => run limit env (step limit env st q).1 qs

/-- Neither a base type nor an implementation data type. -/
def NoType (x : XElem) : Prop := ∃ r c, x = .other r c

/-- The reference of the object leads back to it; that of other objects than types at least not to a
type (sub-elements of types have no reference, and "None" is looked up). -/
def LeadsBack (env : Env) (x : XElem) : Prop :=
  env x.ref = some x ∨ (NoType x ∧ ∀ y, env x.ref = some y → NoType y)

/-- This holds for everything that is found. -/
def EnvOk (env : Env) : Prop := ∀ r x, env r = some x → LeadsBack env x

/-- The element a request is about. -/
def Req.subject (env : Env) : Req → Option XElem
  | .byRef r _ => env r
  | .byElement x _ => some x

/-- Elements handed over directly belong to the workspace. -/
def Req.attached (env : Env) : Req → Prop
  | .byRef _ _ => True
  | .byElement x _ => env x.ref = some x

/-- The model element standing for the element a reference names. -/
def modelOf (env : Env) (st : State) (r : Option String) (o : Oid) : Prop :=
  ∃ q x, r = some q ∧ env q = some x ∧ dictGet st.types x.ref = some o

/-- A text reference: an absent one is looked up as "None" (which finds nothing in practice). -/
def target (r : Option String) : Option String := some (refStr r)

/-- An embedded element type stands for its sub-element. -/
inductive ElemDescribes (env : Env) (st : State) : SubElem → ElemType → Prop
  | value (s p ps o) : s.category = some "VALUE" → s.props = some (p :: ps) →
      modelOf env st (target p.baseRef) o → ElemDescribes env st s (.scalar o)
  | typeRef (s p ps o) : s.category = some "TYPE_REFERENCE" → s.props = some (p :: ps) →
      modelOf env st (target p.implRef) o → ElemDescribes env st s (.ref o)

/-- Element types of a record, one per sub-element, in order. -/
inductive ElemsDescribe (env : Env) (st : State) :
    List SubElem → List (String × ElemType) → Prop
  | nil : ElemsDescribe env st [] []
  | cons (s ss t ts) : ElemDescribes env st s t → ElemsDescribe env st ss ts →
      ElemsDescribe env st (s :: ss) ((s.name, t) :: ts)

/-- The symbol of a type: its own, else its name. -/
inductive SymbolIs (name : String) : Option String → String → Prop
  | own (s) : SymbolIs name (some s) s
  | default : SymbolIs name none name

/-- Model element `obj` stands for XML element `x`. -/
inductive Describes (env : Env) (st : State) : XElem → RObj → Prop
  | base (r n native) : Describes env st (.base r n native) (.base r n native)
  | value (r n sym sy em p ps subs o) : SymbolIs n sym sy → modelOf env st (target p.baseRef) o →
      Describes env st (.impl r n (some "VALUE") sym em (some (p :: ps)) subs) (.scalar r n sy em o)
  | typeRef (r n sym sy em p ps subs o) : SymbolIs n sym sy →
      modelOf env st (target p.implRef) o →
      Describes env st (.impl r n (some "TYPE_REFERENCE") sym em (some (p :: ps)) subs)
        (.refType r n sy o)
  | array (r n sym sy em props s size t) : SymbolIs n sym sy → s.arraySize = some size →
      ElemDescribes env st s t →
      Describes env st (.impl r n (some "ARRAY") sym em props [s])
        (.array r n sy em (s.name, size, t))
  | record (r n sym sy em props subs ts) : SymbolIs n sym sy → ElemsDescribe env st subs ts →
      Describes env st (.impl r n (some "STRUCTURE") sym em props subs) (.record r n sy em ts)
  | pointerValue (r n sym sy em p ps subs q qs o) : SymbolIs n sym sy →
      p.ptr = some (some "VALUE", some (q :: qs)) → modelOf env st (target q.1) o →
      Describes env st (.impl r n (some "DATA_REFERENCE") sym em (some (p :: ps)) subs)
        (.pointer r n sy em o)
  | pointerRef (r n sym sy em p ps subs q qs o) : SymbolIs n sym sy →
      p.ptr = some (some "TYPE_REFERENCE", some (q :: qs)) → modelOf env st (target q.2) o →
      Describes env st (.impl r n (some "DATA_REFERENCE") sym em (some (p :: ps)) subs)
        (.pointer r n sy em o)

/-- The other types a declaration names. -/
def Decl.uses : Decl → List Oid
  | .typedef _ (.named o) => [o]
  | .arrayTypedef _ (.named o) _ => [o]
  | .structTypedef _ ms => ms.filterMap fun m =>
      match m.2 with
      | .named o => some o
      | .native _ => none
  | _ => []

/-- "RTE" in any combination of cases -/
def SpellsRte (s : String) : Prop := s.toList.map Char.toUpper = "RTE".toList

/-- Types declared elsewhere: base types without native declaration and types with an emitter
other than the RTE. -/
inductive External : RObj → Prop
  | baseNone (r n) : External (.base r n none)
  | baseEmpty (r n) : External (.base r n (some ""))
  | scalar (r n s e b) : ¬ SpellsRte e → External (.scalar r n s (some e) b)
  | array (r n s e x) : ¬ SpellsRte e → External (.array r n s (some e) x)
  | record (r n s e x) : ¬ SpellsRte e → External (.record r n s (some e) x)
  | pointer (r n s e x) : ¬ SpellsRte e → External (.pointer r n s (some e) x)

/-- Types asked for as sources, and everything they refer to. -/
inductive Needed (st : State) : Oid → Prop
  | source (r o) : r ∈ st.sources → dictGet st.types r = some o → Needed st o
  | uses (o c obj) : Needed st o → st.objs[o]? = some obj → c ∈ obj.children → Needed st c

/-- The name a declaration introduces. -/
def Decl.name : Decl → String
  | .typedef n _ => n
  | .arrayTypedef n _ _ => n
  | .structTypedef n _ => n

/-- The name of a model element. -/
def nameOf : RObj → String
  | .base _ n _ => n
  | .scalar _ n _ _ _ => n
  | .refType _ n _ _ => n
  | .array _ n _ _ _ => n
  | .record _ n _ _ _ => n
  | .pointer _ n _ _ _ => n

end Verif.Impl.Spec
