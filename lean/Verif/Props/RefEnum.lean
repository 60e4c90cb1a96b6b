import Verif.Props.Ref
/-
C40: attributes that hold members of an enumeration.
-/
namespace Verif.Props.RefEnum
open Verif.Py Verif.Ref Verif.Props.Ref

/-- C40: an attribute of an enumeration class holds `None` or a member of that class through any sequence of
assignments to the object's attributes, accepted or rejected. -/
theorem C40_enum_history (cast : String → PyVal → Except PyErr PyVal) (cls : String → Guard) (attr en : String)
    (hg : cls attr = .typed (.enumClass en)) (o : Attrs)
    (ho : o attr = .none ∨ ∃ m, o attr = .enum en m) (steps : List (String × PyVal)) :
    runAssigns cast cls o steps attr = .none ∨ ∃ m, runAssigns cast cls o steps attr = .enum en m := by
  induction steps generalizing o with
  | nil => exact ho
  | cons s rest ih =>
    obtain ⟨a, v⟩ := s
    simp only [runAssigns]
    apply ih
    by_cases ha : attr = a
    · subst ha
      rw [hg]
      cases v with
      | enum c m =>
        by_cases hc : c = en
        · subst hc
          exact .inr ⟨m, by simp [guardedAssign, assignOptional, assign, setStrictEnum, isEnumInstance, setAttr]⟩
        · simpa [guardedAssign, assignOptional, assign, setStrictEnum, isEnumInstance, hc] using ho
      | _ => simpa [guardedAssign, assignOptional, assign, setStrictEnum, isEnumInstance] using ho
    · rw [guarded_other _ _ _ _ _ _ ha]; exact ho

/-- C40: the outcome of one such assignment.  `None` is ignored, a member of the class is stored, and anything else
raises TypeError without any change. -/
theorem C40_enum_decision (cast : String → PyVal → Except PyErr PyVal) (o : Attrs) (attr en : String) (v : PyVal) :
    guardedAssign cast o attr v (.typed (.enumClass en)) =
      match v with
      | .none => (o, .ok ())
      | .enum c m => if c = en then (setAttr o attr (.enum c m), .ok ()) else (o, .error .typeError)
      | _ => (o, .error .typeError) := by
  cases v <;> simp [guardedAssign, assignOptional, assign, setStrictEnum, isEnumInstance]

/-- A member of another class does not replace what is there. -/
example : (runAssigns (fun _ v => .ok v) (fun _ => .typed (.enumClass "SwImplPolicy")) (fun _ => .none)
    [("impl_policy", .enum "SwImplPolicy" "QUEUED"), ("impl_policy", .enum "ByteOrder" "OPAQUE"),
      ("impl_policy", .str "STANDARD")]) "impl_policy" = .enum "SwImplPolicy" "QUEUED" := by decide

end Verif.Props.RefEnum
