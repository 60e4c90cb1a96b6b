import Verif.Work.Docs
/-
Configuration files: `load_config` (src/autosar/xml/workspace.py 204-224, 278-330), behaviour settings
(src/autosar/xml/element.py 2944-3007).  Reading the file and parsing TOML are not modelled.
-/
namespace Verif.Work
open Verif.Py Verif.Pkg

/-- Values of a parsed TOML file; `other` are numbers, booleans, dates. -/
inductive Toml where
  | str (s : String)
  | other
  | list (l : List Toml)
  | table (l : List (String × Toml))

/-- The workspace as far as configurations are concerned (workspace.py 81-89): `assigned` are the
attributes of the behaviour settings that were assigned after construction (element.py 2949-2975). -/
structure CfgWs where
  namespaces : Dict Namespace
  docs : DocWs
  assigned : Dict String

/-- The attributes of `BehaviorSettings`, all None at first (element.py 2951-2975). -/
def settingNames : List String :=
  ["background_event_prefix", "data_receive_error_event_prefix", "data_receive_event_prefix",
   "init_event_prefix", "operation_invoked_event_prefix", "swc_mode_manager_error_event_prefix",
   "swc_mode_switch_event_prefix", "timing_event_prefix", "data_read_access_prefix",
   "data_receive_point_prefix", "data_send_point_prefix", "data_write_access_prefix",
   "external_triggering_point_prefix", "internal_triggering_point_prefix",
   "mode_access_point_prefix", "mode_switch_point_prefix", "parameter_access_prefix",
   "read_local_variable_prefix", "server_call_point_prefix", "wait_point_prefix",
   "write_local_variable_prefix"]

/-- The methods of `BehaviorSettings` (element.py 2977, 2988, 2995, 3000), attributes of the object
as well.  Simplification: those every object has (`__doc__`, …) are left out. -/
def settingMethods : List String := ["set_value", "update", "set_default", "get_value"]

/-- `set_value` (element.py 2977-2986).  An attribute assigned earlier under the name of a method
hides the method, and a text cannot be called. -/
def setValue (a : Dict String) (name : String) (value : Toml) : Dict String × Except PyErr Unit :=
  if dictHas a "set_value" then (a, .error .typeError)
  else if name ∈ settingNames ++ settingMethods then
    match value with
    | .str s => (dictSet a name s, .ok ())
    | _ => (a, .error .typeError)
  else (a, .error .keyError)

/-- The loop of `update` (element.py 2992-2993). -/
def setValues (a : Dict String) : List (String × Toml) → Dict String × Except PyErr Unit
  | [] => (a, .ok ())
  | (n, v) :: rest =>
    match setValue a n v with
    | (a1, .error e) => (a1, .error e)
    | (a1, .ok ()) => setValues a1 rest

/-- `update` (element.py 2988-2993). -/
def updateSettings (a : Dict String) : Toml → Dict String × Except PyErr Unit
  | .table l => if dictHas a "update" then (a, .error .typeError) else setValues a l
  | _ => if dictHas a "update" then (a, .error .typeError) else (a, .error .attributeError)

/-- `get_value` (element.py 3000-3007), for names that are no methods. -/
def getValue (a : Dict String) (name : String) : Except PyErr String :=
  if dictHas a "get_value" then .error .typeError
  else
    match dictGet a name with
    | some s => .ok s
    | none => if name ∈ settingNames then .error .valueError else .error .attributeError

/-- The loop at workspace.py 67-73 on values that need not be texts: the role is looked up first,
then `posixpath.join` raises TypeError unless both arguments are texts. -/
def fillToml (base : Toml) : List (String × Toml) → List (Role × String) →
    Except PyErr (List (Role × String))
  | [], m => .ok m
  | (rn, rel) :: rest, m =>
    match parseRole rn with
    | .error e => .error e
    | .ok r =>
      match base, rel with
      | .str b, .str p => fillToml base rest (roleSet m r (String.ofList (pjoin b.toList p.toList)))
      | _, _ => .error .typeError

/-- `Namespace.__init__` (workspace.py 62-73) on values of the file.  Simplification: a `base_ref`
that is no text raises TypeError even if there is no path to join. -/
def namespaceOf (name : String) (entries : List (String × Toml)) (base : Option Toml) :
    Except PyErr Namespace :=
  match fillToml (base.getD (.str ("/" ++ name))) entries [] with
  | .error e => .error e
  | .ok m =>
    match base with
    | none => .ok ⟨name, "/" ++ name, m⟩
    | some (.str b) => .ok ⟨name, b, m⟩
    | some _ => .error .typeError

/-- `_create_namespace_from_config` (workspace.py 278-286): `base_ref` apart from the rest. -/
def namespaceFromConfig (nss : Dict Namespace) (name : String) : Toml → Dict Namespace × Except PyErr Unit
  | .table l =>
    match namespaceOf name (l.filter fun e => e.1 ≠ "base_ref") (dictGet l "base_ref") with
    | .error e => (nss, .error e)
    | .ok ns => (dictSet nss name ns, .ok ())
  | _ => (nss, .error .attributeError)

/-- The texts of a list; anything else in it fails an assertion (workspace.py 31-33, 308-310,
325-327, 52-54). -/
def textsOf : List Toml → Except PyErr (List String)
  | [] => .ok []
  | .str s :: rest =>
    match textsOf rest with
    | .error e => .error e
    | .ok l => .ok (s :: l)
  | _ :: _ => .error .assertionError

/-- `DocumentConfig.__init__` (workspace.py 24-33) on a value of the file: a text, a list, the keys
of a table; `None` and anything else cannot be iterated. -/
def packageRefs : Option Toml → Except PyErr (List String)
  | some (.str s) => .ok [s]
  | some (.list l) => textsOf l
  | some (.table l) => .ok (l.map (·.1))
  | some .other => .error .typeError
  | none => .error .typeError

/-- `_create_document_from_config` (workspace.py 288-290, 172-177). -/
def documentFromConfig (w : DocWs) (name : String) : Toml → DocWs × Except PyErr Unit
  | .table l =>
    match packageRefs (dictGet l "packages") with
    | .error e => ({ w with heap := w.heap.alloc .collection "" }, .error e)
    | .ok rs => createDocument w (name ++ ".arxml") (some rs)
  | _ => (w, .error .attributeError)

/-- A text or a list of texts (workspace.py 305-312, 322-329). -/
def oneOrMore : Toml → Except PyErr (List String)
  | .str s => .ok [s]
  | .list l => textsOf l
  | _ => .error .valueError

/-- The classes of the given names (workspace.py 313-317): `classes` are the attributes of the
module `element` with what `isinstance` says for them.  Simplification: attributes that are no
classes are left out. -/
def classesOf (classes : String → Option (Nat → Bool)) : List String → Except PyErr (List (Nat → Bool))
  | [] => .ok []
  | n :: rest =>
    match classes n with
    | none => .error .valueError
    | some c =>
      match classesOf classes rest with
      | .error e => .error e
      | .ok l => .ok (c :: l)

/-- `suffix_filters` of a mapping (workspace.py 320-329). -/
def suffixesOf : Option Toml → Except PyErr (List String)
  | none => .ok []
  | some f => oneOrMore f

/-- `_create_document_mapping_from_config` (workspace.py 292-330).  Simplification: a `package_ref`
that is no text raises TypeError (the code notices when documents are written). -/
def mappingFromConfig (classes : String → Option (Nat → Bool)) (w : DocWs) : Toml → DocWs × Except PyErr Unit
  | .table l =>
    match dictGet l "package_ref" with
    | none => (w, .error .keyError)
    | some ref =>
      match dictGet l "element_types" with
      | none => (w, .error .keyError)
      | some v =>
        match oneOrMore v with
        | .error e => (w, .error e)
        | .ok names =>
          match classesOf classes names with
          | .error e => (w, .error e)
          | .ok cs =>
            if cs.length = 0 then (w, .error .valueError)
            else
              match suffixesOf (dictGet l "suffix_filters") with
              | .error e => (w, .error e)
              | .ok sfx =>
                match ref with
                | .str r => createMapping w r (fun x => cs.any fun c => c x) (.list sfx)
                | _ => (w, .error .typeError)
  | _ => (w, .error .attributeError)

/-- The three loops of `load_config` (workspace.py 210-222). -/
def loadNamespaces (w : CfgWs) : List (String × Toml) → CfgWs × Except PyErr Unit
  | [] => (w, .ok ())
  | (n, t) :: rest =>
    match namespaceFromConfig w.namespaces n t with
    | (nss, .error e) => ({ w with namespaces := nss }, .error e)
    | (nss, .ok ()) => loadNamespaces { w with namespaces := nss } rest

def loadDocuments (w : CfgWs) : List (String × Toml) → CfgWs × Except PyErr Unit
  | [] => (w, .ok ())
  | (n, t) :: rest =>
    match documentFromConfig w.docs n t with
    | (d, .error e) => ({ w with docs := d }, .error e)
    | (d, .ok ()) => loadDocuments { w with docs := d } rest

def loadMappings (classes : String → Option (Nat → Bool)) (w : CfgWs) :
    List (String × Toml) → CfgWs × Except PyErr Unit
  | [] => (w, .ok ())
  | (_, t) :: rest =>
    match mappingFromConfig classes w.docs t with
    | (d, .error e) => ({ w with docs := d }, .error e)
    | (d, .ok ()) => loadMappings classes { w with docs := d } rest

/-- A section of the file: missing, a table, or something without `items`/`values`. -/
def section? (w : CfgWs) (v : Option Toml) (f : CfgWs → List (String × Toml) → CfgWs × Except PyErr Unit) :
    CfgWs × Except PyErr Unit :=
  match v with
  | none => (w, .ok ())
  | some (.table l) => f w l
  | some _ => (w, .error .attributeError)

/-- `load_config` (workspace.py 204-224) on the parsed file. -/
def loadConfig (classes : String → Option (Nat → Bool)) (w : CfgWs) (config : List (String × Toml)) :
    CfgWs × Except PyErr Unit :=
  match section? w (dictGet config "namespace") loadNamespaces with
  | (w1, .error e) => (w1, .error e)
  | (w1, .ok ()) =>
    match section? w1 (dictGet config "document") loadDocuments with
    | (w2, .error e) => (w2, .error e)
    | (w2, .ok ()) =>
      match section? w2 (dictGet config "document_mapping") (loadMappings classes) with
      | (w3, .error e) => (w3, .error e)
      | (w3, .ok ()) =>
        match dictGet config "behavior" with
        | none => (w3, .ok ())
        | some t =>
          let r := updateSettings w3.assigned t
          ({ w3 with assigned := r.1 }, r.2)

end Verif.Work
