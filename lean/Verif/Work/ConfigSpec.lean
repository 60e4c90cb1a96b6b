import Verif.Work.Config
/-
What a configuration file says: the calls it stands for.
-/
namespace Verif.Work.ConfigSpec
open Verif.Py Verif.Pkg Verif.Work

/-- The calls a program can make instead of loading a file.  `accepts x` is
`isinstance(x, element_types)`. -/
inductive Cmd where
  | createNamespace (name : String) (roles : List (String × String)) (base : Option String)
  | createDocument (path : String) (packages : List String)
  | createMapping (ref : String) (accepts : Nat → Bool) (suffixes : List String)
  | setValue (name value : String)

/-- What a call does. -/
def perform (w : CfgWs) : Cmd → CfgWs × Except PyErr Unit
  | .createNamespace n roles base =>
    let r := Work.createNamespace w.namespaces n roles base
    ({ w with namespaces := r.1 }, r.2)
  | .createDocument p refs =>
    let r := Work.createDocument w.docs p (some refs)
    ({ w with docs := r.1 }, r.2)
  | .createMapping ref a sfx =>
    let r := Work.createMapping w.docs ref a (.list sfx)
    ({ w with docs := r.1 }, r.2)
  | .setValue n v =>
    let r := Work.setValue w.assigned n (.str v)
    ({ w with assigned := r.1 }, r.2)

/-- One call after the other until one raises. -/
def performAll (w : CfgWs) : List Cmd → CfgWs × Except PyErr Unit
  | [] => (w, .ok ())
  | c :: cs =>
    match perform w c with
    | (w1, .error e) => (w1, .error e)
    | (w1, .ok ()) => performAll w1 cs

/-- A text or a list of texts. -/
inductive Texts : Toml → List String → Prop
  | one (s : String) : Texts (.str s) [s]
  | many (l : List String) : Texts (.list (l.map .str)) l

/-- `[namespace.<name>]` -/
inductive SaysNamespace : String × Toml → Cmd → Prop
  | mk {name : String} {tbl : List (String × Toml)} {roles : List (String × String)} {base : Option String} :
      dictGet tbl "base_ref" = base.map .str →
      (tbl.filter fun e => e.1 ≠ "base_ref") = roles.map (fun r => (r.1, .str r.2)) →
      SaysNamespace (name, .table tbl) (.createNamespace name roles base)

/-- `[document.<name>]` -/
inductive SaysDocument : String × Toml → Cmd → Prop
  | mk {name : String} {tbl : List (String × Toml)} {v : Toml} {refs : List String} :
      dictGet tbl "packages" = some v → Texts v refs →
      SaysDocument (name, .table tbl) (.createDocument (name ++ ".arxml") refs)

/-- `[document_mapping.<name>]`; the name means nothing. -/
inductive SaysMapping (classes : String → Option (Nat → Bool)) : String × Toml → Cmd → Prop
  | mk {name ref : String} {tbl : List (String × Toml)} {v : Toml} {names sfx : List String}
      {accepts : Nat → Bool} :
      dictGet tbl "package_ref" = some (.str ref) → dictGet tbl "element_types" = some v →
      Texts v names → names ≠ [] → (∀ n ∈ names, ∃ c, classes n = some c) →
      (∀ x, accepts x = true ↔ ∃ n ∈ names, ∃ c, classes n = some c ∧ c x = true) →
      (dictGet tbl "suffix_filters" = none ∧ sfx = [] ∨
        ∃ f, dictGet tbl "suffix_filters" = some f ∧ Texts f sfx) →
      SaysMapping classes (name, .table tbl) (.createMapping ref accepts sfx)

/-- A line of `[behavior]` -/
inductive SaysSetting : String × Toml → Cmd → Prop
  | mk {name value : String} : SaysSetting (name, .str value) (.setValue name value)

/-- Entries and calls correspond in order. -/
inductive Each (R : String × Toml → Cmd → Prop) : List (String × Toml) → List Cmd → Prop
  | nil : Each R [] []
  | cons {e c es cs} : R e c → Each R es cs → Each R (e :: es) (c :: cs)

/-- A section: missing, or a table of entries. -/
inductive Section (R : String × Toml → Cmd → Prop) : Option Toml → List Cmd → Prop
  | missing : Section R none []
  | present {l cs} : Each R l cs → Section R (some (.table l)) cs

/-- The calls a file stands for: first the namespaces, then the documents, the mappings, the
settings. -/
structure Says (classes : String → Option (Nat → Bool)) (config : List (String × Toml))
    (ns docs maps sets : List Cmd) : Prop where
  namespaces : Section SaysNamespace (dictGet config "namespace") ns
  documents : Section SaysDocument (dictGet config "document") docs
  mappings : Section (SaysMapping classes) (dictGet config "document_mapping") maps
  settings : Section SaysSetting (dictGet config "behavior") sets

/-- The settings there are: prefixes for the names of events and of the access points of runnables. -/
def settings : List String :=
  ["background_event_prefix", "data_receive_error_event_prefix", "data_receive_event_prefix",
   "init_event_prefix", "operation_invoked_event_prefix", "swc_mode_manager_error_event_prefix",
   "swc_mode_switch_event_prefix", "timing_event_prefix", "data_read_access_prefix",
   "data_receive_point_prefix", "data_send_point_prefix", "data_write_access_prefix",
   "external_triggering_point_prefix", "internal_triggering_point_prefix",
   "mode_access_point_prefix", "mode_switch_point_prefix", "parameter_access_prefix",
   "read_local_variable_prefix", "server_call_point_prefix", "wait_point_prefix",
   "write_local_variable_prefix"]

/-- The methods of the object that holds them. -/
def methods : List String := ["set_value", "update", "set_default", "get_value"]

/-- Names given to namespaces, and to settings. -/
def nsNames (cs : List Cmd) : List String :=
  cs.filterMap fun c => match c with | .createNamespace n _ _ => some n | _ => none
def setNames (cs : List Cmd) : List String :=
  cs.filterMap fun c => match c with | .setValue n _ => some n | _ => none

/-- Documents and mappings given. -/
def docEntries (cs : List Cmd) : List (String × List String) :=
  cs.filterMap fun c => match c with | .createDocument p rs => some (p, rs) | _ => none
def mapEntries (cs : List Cmd) : List Mapping :=
  cs.filterMap fun c => match c with | .createMapping r a sfx => some ⟨r, a, sfx⟩ | _ => none

end Verif.Work.ConfigSpec
