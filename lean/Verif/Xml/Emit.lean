import Verif.Xml.Spec
/- The writer state machine produces the lines of the specification and restores its state. -/
namespace Verif.Xml
open Verif.Py Verif.Xml.Spec

/-- The state between two elements at depth `d`. -/
def Coherent (d : Nat) (w : WState) : Prop := w.level = d ∧ w.indent = indentOf d ∧ 1 ≤ w.line

theorem spaces_two (d : Nat) : spaces ((d : Int) * 2) = indentOf d := by
  unfold spaces indentOf
  congr 1
  omega

/-- The text of lines that follow other lines. -/
def block (ls : List (Nat × List Char)) : List Char :=
  ls.flatMap fun l => '\n' :: (indentOf l.1 ++ l.2)

theorem block_append (a b : List (Nat × List Char)) : block (a ++ b) = block a ++ block b := by
  simp [block]

@[simp] theorem block_cons (d : Nat) (t : List Char) (ls : List (Nat × List Char)) :
    block ((d, t) :: ls) = '\n' :: (indentOf d ++ (t ++ block ls)) := by
  simp [block]

@[simp] theorem block_nil : block [] = [] := rfl

theorem addParts_out (w : WState) (ps : List Part) :
    w.addParts ps = w.write (partsStr ps) := by
  induction ps generalizing w with
  | nil => cases w; simp [WState.addParts, WState.write, partsStr]
  | cons p ps ih =>
    cases p <;> simp [WState.addParts, WState.write, partsStr, ih]

/-- What writing lines below other lines does to the state. -/
def after (w : WState) (ls : List (Nat × List Char)) : WState :=
  { w with out := w.out ++ block ls, line := w.line + ls.length }

mutual
theorem emit_after (d : Nat) (w : WState) (x : Xml) (hw : Coherent d w) (hl : 1 < w.line) :
    emit w x = .ok (after w (lines d x)) := by
  obtain ⟨h1, h2, h3⟩ := hw
  match x with
  | .leaf tag attrs t =>
    simp [emit, WState.addContent, WState.addLine, hl, lines, after, h2]
  | .mixed tag attrs ps =>
    simp [emit, WState.beginLine, WState.addLine, hl, lines, after, h2, addParts_out,
      WState.endLine, WState.write]
  | .node tag attrs kids =>
    rw [emit]
    have hc : Coherent (d + 1) (w.addChild tag attrs) := by
      refine ⟨?_, ?_, ?_⟩
      · simp [WState.addChild, WState.doIndent, WState.addLine, h1]
      · simp only [WState.addChild, WState.doIndent, WState.addLine, h1]
        exact spaces_two (d + 1)
      · simp [WState.addChild, WState.doIndent, WState.addLine]
    have hl' : 1 < (w.addChild tag attrs).line := by
      simp [WState.addChild, WState.doIndent, WState.addLine]; omega
    rw [emitAll_after (d + 1) (w.addChild tag attrs) kids hc hl']
    simp only [after, WState.leaveChild, WState.addChild, WState.doIndent, WState.dedent,
      WState.addLine, hl, if_true, h1, h2, lines]
    have hd : (if (d : Int) + 1 - 1 = 0 then [] else spaces (((d : Int) + 1 - 1) * 2)) = indentOf d := by
      have e1 : (d : Int) + 1 - 1 = d := by omega
      rw [e1, spaces_two]
      split
      · have : d = 0 := by omega
        subst this; rfl
      · rfl
    rw [hd]
    simp only [Except.ok.injEq, WState.mk.injEq]
    refine ⟨?_, by omega, trivial, trivial, ?_⟩
    · rw [if_pos (by omega)]
      simp [block_append]
    · simp; omega
theorem emitAll_after (d : Nat) (w : WState) (xs : List Xml) (hw : Coherent d w) (hl : 1 < w.line) :
    emitAll w xs = .ok (after w (linesAll d xs)) := by
  match xs with
  | [] => simp [emitAll, after, linesAll]
  | x :: xs =>
    rw [emitAll, emit_after d w x hw hl]
    simp only
    rw [emitAll_after d (after w (lines d x)) xs ⟨hw.1, hw.2.1, by simp [after]; omega⟩
      (by simp [after]; omega)]
    simp [after, linesAll, block_append]
    omega
end

theorem lines_ne_nil (d : Nat) (x : Xml) : lines d x ≠ [] := by
  cases x <;> simp [lines]

theorem lines_head (d : Nat) (x : Xml) : ∃ t ls, lines d x = (d, t) :: ls := by
  cases x <;> simp [lines]

theorem joinLines_block (d : Nat) (t : List Char) (ls : List (Nat × List Char)) :
    joinLines ((d, t) :: ls) = indentOf d ++ (t ++ block ls) := by
  induction ls generalizing d t with
  | nil => simp [joinLines]
  | cons l ls ih =>
    obtain ⟨d', t'⟩ := l
    rw [joinLines]
    · rw [ih]; simp
    · simp

/-- The very first element written: no newline before it. -/
theorem emit_init (x : Xml) :
    ∃ w, emit .init x = .ok w ∧ w.out = joinLines (lines 0 x) ∧ w.level = 0 ∧ w.indent = [] ∧
      w.stack = [] := by
  match x with
  | .leaf tag attrs t =>
    exact ⟨_, rfl, by simp [WState.addContent, WState.addLine, WState.init, lines, joinLines, indentOf], rfl, rfl, rfl⟩
  | .mixed tag attrs ps =>
    refine ⟨_, rfl, ?_, ?_, ?_, ?_⟩ <;>
      simp [WState.beginLine, WState.addLine, WState.init, lines, joinLines, indentOf,
        addParts_out, WState.endLine, WState.write]
  | .node tag attrs kids =>
    rw [emit]
    have hc : Coherent 1 (WState.init.addChild tag attrs) := by
      refine ⟨?_, ?_, ?_⟩ <;>
      simp [WState.addChild, WState.doIndent, WState.addLine, WState.init, spaces, indentOf]
    have hl' : 1 < (WState.init.addChild tag attrs).line := by
      simp [WState.addChild, WState.doIndent, WState.addLine, WState.init]
    rw [emitAll_after 1 _ kids hc hl']
    simp only [after, WState.leaveChild, WState.addChild, WState.doIndent, WState.dedent,
      WState.addLine, WState.init, lines]
    refine ⟨_, rfl, ?_, ?_, ?_, ?_⟩
    · rw [joinLines_block]
      have : 1 + 1 + (linesAll 1 kids).length > 1 := by omega
      simp [block_append, indentOf, this]
    · rfl
    · simp
    · rfl

end Verif.Xml
