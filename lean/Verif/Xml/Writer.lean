import Verif.Py
/-
The text writer `_XMLWriter` (src/autosar/xml/writer.py 22-125) as a state machine, and the
documents the writer methods walk.
-/
namespace Verif.Xml
open Verif.Py

/-- XML attributes, in order (writer.py 19). -/
abbrev Attrs := List (String × String)

/-- A piece of inline content, between `_begin_line` and `_end_line`: text
(`_add_inline_text`, writer.py 72-73) or an inline `_add_content` (103-118). -/
inductive Part where
  | text (s : String)
  | elem (tag : String) (attrs : Attrs) (text : String)
deriving DecidableEq, Repr

/-- An element as the `_write_*` methods produce it.  All of them are built from three
patterns, one per constructor. -/
inductive Xml where
  /-- `_add_child(tag, attr)`, children, `_leave_child()` -/
  | node (tag : String) (attrs : Attrs) (kids : List Xml)
  /-- `_add_content(tag, text, attr)` -/
  | leaf (tag : String) (attrs : Attrs) (text : String)
  /-- `_begin_line(tag, attr)`, inline pieces, `_end_line(tag)` -/
  | mixed (tag : String) (attrs : Attrs) (parts : List Part)
deriving Repr

/-- The writer's state (writer.py 23-33).  `out` is the text written so far. -/
structure WState where
  out : List Char
  level : Int
  indent : List Char
  stack : List String
  line : Nat
deriving DecidableEq, Repr

/-- `_str_open` (writer.py 34-39) -/
def WState.init : WState := ⟨[], 0, [], [], 1⟩

/-- `indentation_char * n`: a negative count gives the empty string -/
def spaces (n : Int) : List Char := List.replicate n.toNat ' '

/-- `_indent` (writer.py 52-55), indentation step 2 (187) -/
def WState.doIndent (w : WState) : WState :=
  { w with level := w.level + 1, indent := spaces ((w.level + 1) * 2) }

/-- `_dedent` (writer.py 57-63) -/
def WState.dedent (w : WState) : WState :=
  { w with level := w.level - 1,
           indent := if w.level - 1 = 0 then [] else spaces ((w.level - 1) * 2) }

/-- `_add_inline_text` (writer.py 72-73) -/
def WState.write (w : WState) (t : List Char) : WState := { w with out := w.out ++ t }

/-- `_add_line` (writer.py 65-70) -/
def WState.addLine (w : WState) (t : List Char) : WState :=
  { w with out := w.out ++ (if w.line > 1 then ['\n'] else []) ++ w.indent ++ t,
           line := w.line + 1 }

/-- one attribute: `k="v"` (writer.py 124) -/
def attrStr (a : String × String) : List Char := a.1.toList ++ '=' :: '"' :: (a.2.toList ++ ['"'])

/-- `_attr_to_str` (writer.py 120-125): joined by a blank -/
def attrsStr : Attrs → List Char
  | [] => []
  | [a] => attrStr a
  | a :: as => attrStr a ++ ' ' :: attrsStr as

/-- `f'<{tag} {attrs}'` or `f'<{tag}'`: what precedes `>` or `/>` in a start tag. -/
def startHead (tag : String) (attrs : Attrs) : List Char :=
  '<' :: tag.toList ++ (if attrs = [] then [] else ' ' :: attrsStr attrs)

/-- start tag (writer.py 76-79, 93-96) -/
def startTag (tag : String) (attrs : Attrs) : List Char := startHead tag attrs ++ ['>']

/-- `f'</{tag}>'` -/
def endTag (tag : String) : List Char := '<' :: '/' :: (tag.toList ++ ['>'])

/-- The text of `_add_content` (writer.py 104-114). -/
def contentStr (tag : String) (attrs : Attrs) (text : String) : List Char :=
  if text = "" then startHead tag attrs ++ ['/', '>']
  else startTag tag attrs ++ text.toList ++ endTag tag

/-- `_add_child` (writer.py 75-81) -/
def WState.addChild (w : WState) (tag : String) (attrs : Attrs) : WState :=
  let w1 := w.addLine (startTag tag attrs)
  { w1 with stack := tag :: w1.stack }.doIndent

/-- `_leave_child` (writer.py 83-86); `pop` from an empty stack raises IndexError -/
def WState.leaveChild (w : WState) : Except PyErr WState :=
  match w.stack with
  | [] => .error .indexError
  | tag :: rest => .ok (({ w with stack := rest }.dedent).addLine (endTag tag))

/-- `_add_content`, not inline (writer.py 103-118) -/
def WState.addContent (w : WState) (tag : String) (attrs : Attrs) (text : String) : WState :=
  w.addLine (contentStr tag attrs text)

/-- `_begin_line` (writer.py 88-97): the same text as a line with the start tag -/
def WState.beginLine (w : WState) (tag : String) (attrs : Attrs) : WState :=
  w.addLine (startTag tag attrs)

/-- `_end_line` (writer.py 99-101) -/
def WState.endLine (w : WState) (tag : String) : WState := w.write (endTag tag)

/-- The inline pieces (e.g. writer.py 706-720). -/
def WState.addParts (w : WState) : List Part → WState
  | [] => w
  | .text s :: ps => (w.write s.toList).addParts ps
  | .elem tag attrs text :: ps => (w.write (contentStr tag attrs text)).addParts ps

mutual
/-- Perform the calls that write one element. -/
def emit (w : WState) : Xml → Except PyErr WState
  | .node tag attrs kids =>
    match emitAll (w.addChild tag attrs) kids with
    | .ok w1 => w1.leaveChild
    | .error e => .error e
  | .leaf tag attrs text => .ok (w.addContent tag attrs text)
  | .mixed tag attrs parts => .ok (((w.beginLine tag attrs).addParts parts).endLine tag)

/-- Perform the calls that write several elements in a row. -/
def emitAll (w : WState) : List Xml → Except PyErr WState
  | [] => .ok w
  | x :: xs =>
    match emit w x with
    | .ok w1 => emitAll w1 xs
    | .error e => .error e
end

/-- `write_str_elem` (writer.py 417-432) for an element whose writer produces `x`. -/
def writeElem (x : Xml) : Except PyErr (List Char) := (emit .init x).map (·.out)

/-- The XML declaration (writer.py 500). -/
def xmlDecl : List Char := "<?xml version=\"1.0\" encoding=\"utf-8\"?>".toList

/-- `write_str`/`write_file` (writer.py 401-415, 498-510): declaration, then the root element. -/
def writeDocument (root : Xml) : Except PyErr (List Char) :=
  (emit (WState.init.addLine xmlDecl) root).map (·.out)

end Verif.Xml
