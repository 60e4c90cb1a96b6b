import Verif.Codec.AppendProof
/-
C60: objects built part by part.
-/
namespace Verif.Props.CodecAppend
open Verif.Py Verif.Names Verif.Codec Verif.Codec.Append Verif.Codec.AppendSpec

/-- C60: an object to which parts are added by calls is the object that the constructor makes of the
same arguments with the parts at the ends of the lists — and if the names of access points cannot be
made there, they cannot be made here (`none`). -/
theorem C60_same (D : Digits) (c : Cls) (data all : Data Cls) (o : Val Cls)
    (calls : List (String × Val Cls)) (h : construct D c data = some (.ok o))
    (hc : ∀ call ∈ calls, part c call.1 call.2 ≠ none)
    (hl : ∀ p ∈ lists c, lastOf all p = some (some (.list (given data p ++ parts c calls p))))
    (ho : ∀ p, p ∉ lists c → lastOf all p = lastOf data p) :
    addMany D o calls = construct D c all :=
  same D calls data all o h hc hl ho

/-- C60: what a method does not take, the constructor does not take either. -/
theorem C60_refused (D : Digits) (c : Cls) (m : String) (ps : List String) (x : Val Cls)
    (hm : (m, ps) ∈ partMethods c) (hx : part c m x = none) :
    (∀ fs, ∃ e, (e = .typeError ∨ e = .assertionError) ∧ add D (.obj c fs) m x = some (.error e)) ∧
    ∀ p ∈ ps, ∀ data vs, lastOf data p = some (some (.list vs)) → meant m x ∈ vs →
      ∃ e, construct D c data = some (.error e) := by
  constructor
  · intro fs
    obtain ⟨e, he, h⟩ := add_no_part (List.mem_map_of_mem hm) hx
    exact ⟨e, he, h D fs⟩
  · intro p hp data vs hd hv
    exact refuses D hm rfl hx hp hd hv

/-- An access to data. -/
def access (n : String) : Val Cls := .obj .VariableAccess [("name", .str n)]

/-- Two accesses and an exclusive area for a runnable that has one access. -/
def calls : List (String × Val Cls) :=
  [("append_data_read_access", access "A"), ("append_can_enter_leave", .str "/Pkg/Area"),
   ("append_data_read_access", access "B")]

def area : Val Cls := .obj .ExclusiveAreaRefConditional
  [("exclusive_area", .ref ⟨"ExclusiveAreaRef", "/Pkg/Area", "EXCLUSIVE_AREA"⟩)]

/-- The arguments before. -/
def before : Data Cls := [("name", some (.str "Run")), ("data_read_access", some (.list [access "A"]))]

/-- All arguments. -/
def everything : Data Cls :=
  (lists .RunnableEntity).map (fun p => (p, some (.list []))) ++
  [("name", some (.str "Run")), ("can_enter_leave", some (.list [area])),
   ("data_read_access", some (.list [access "A", access "A", access "B"]))]

/-- The runnable before and after: the name of the first access has been changed. -/
example : construct asciiDigits .RunnableEntity before = some (.ok (.obj .RunnableEntity
      [("name", .str "Run"), ("data_read_access", .list [access "A"])])) ∧
    construct asciiDigits .RunnableEntity everything = some (.ok (.obj .RunnableEntity
      [("name", .str "Run"), ("can_enter_leave", .list [area]),
       ("data_read_access", .list [access "A_0", access "A", access "B"])])) :=
  ⟨by with_unfolding_all rfl, by with_unfolding_all rfl⟩

example : ∀ call ∈ calls, part .RunnableEntity call.1 call.2 ≠ none := by
  have h : ∀ call ∈ calls, (part .RunnableEntity call.1 call.2).isSome = true := by decide +kernel
  intro call hc hn
  have := h call hc
  rw [hn] at this
  cases this

example : (∀ p ∈ lists .RunnableEntity, lastOf everything p =
      some (some (.list (given before p ++ parts .RunnableEntity calls p)))) ∧
    ∀ p, p ∉ lists .RunnableEntity → lastOf everything p = lastOf before p := by
  constructor
  · exact List.map_inj_left.1 (by with_unfolding_all rfl)
  · intro p hp
    by_cases hn : p = "name"
    · subst hn
      with_unfolding_all rfl
    · have h1 : lastOf everything p = none := by
        cases hl : lastOf everything p with
        | none => rfl
        | some v =>
          have hm := lastOf_mem hl
          simp only [everything, List.mem_append, List.mem_map, List.mem_cons, Prod.mk.injEq,
            List.not_mem_nil, or_false] at hm
          rcases hm with ⟨q, hq, rfl, -⟩ | ⟨rfl, -⟩ | ⟨rfl, -⟩ | ⟨rfl, -⟩
          · exact absurd hq hp
          · exact absurd rfl hn
          · exact absurd (by decide) hp
          · exact absurd (by decide) hp
      have h2 : lastOf before p = none := by
        cases hl : lastOf before p with
        | none => rfl
        | some v =>
          have hm := lastOf_mem hl
          simp only [before, List.mem_cons, Prod.mk.injEq, List.not_mem_nil, or_false] at hm
          rcases hm with ⟨rfl, -⟩ | ⟨rfl, -⟩
          · exact absurd rfl hn
          · exact absurd (by decide) hp
      rw [h1, h2]

/-- A path is not an access, and not every reference is one to an exclusive area. -/
example : part .RunnableEntity "append_data_read_access" (.str "/Pkg/Var") = none ∧
    part .RunnableEntity "append_can_enter_leave" (.ref ⟨"PortPrototypeRef", "/P", "P-PORT-PROTOTYPE"⟩) =
      none :=
  ⟨by with_unfolding_all rfl, by with_unfolding_all rfl⟩

/-- A port takes the specifications for both directions by one method. -/
example : part .PRPortPrototype "append_com_spec" (.obj .QueuedSenderComSpec []) =
      some ("provided_com_spec", .obj .QueuedSenderComSpec []) ∧
    part .PRPortPrototype "append_com_spec" (.obj .ClientComSpec []) =
      some ("required_com_spec", .obj .ClientComSpec []) :=
  ⟨by with_unfolding_all rfl, by with_unfolding_all rfl⟩

end Verif.Props.CodecAppend
