import Verif.CFile.Spec

/-!
# CFile: how a compiler sees the body of a function

A reader of the text between the braces of a function or of a structure, independent of the generator: the text is cut into the
statements (or members) and the blocks with what stands in front of them.  Brackets around `;` (a `for` statement) and the braces
of an initialiser belong to the statement they stand in.

Not represented: labels, and statements behind `if (...)` without braces (they are read as one statement).
-/

namespace EasyMock.CFile

/-- A statement without its semicolon; the beginning of a block with what stands in front of it; the end of a block. -/
inductive Item where
  | stmt (text : List Char)
  | enter (head : List Char)
  | leave
  deriving DecidableEq, Repr

/-- The words which a block can follow. -/
def blockWords : List (List Char) := ["if".toList, "else".toList, "for".toList, "while".toList, "do".toList, "switch".toList]

/-- Whether a brace behind the text opens a block. -/
def control (t : List Char) : Bool := blockWords.contains (t.takeWhile identChar)

/-- The state of the reader: the number of open blocks, what was read, the text since, the number of open brackets in it, the
    quote of the string which is open and whether a backslash in it precedes. -/
structure CodeReader where
  level : Nat
  done : List Item
  piece : List Char
  depth : Nat
  quote : Option Char
  escaped : Bool
  deriving DecidableEq, Repr

/-- One character outside strings and brackets. -/
def CodeReader.plain (r : CodeReader) (c : Char) : Option CodeReader :=
  if c = ';' then
    some (if trim r.piece = [] then { r with piece := [] }
      else { r with piece := [], done := r.done ++ [.stmt (trim r.piece)] })
  else if c = '{' then
    if r.piece = [] ∨ control r.piece = true then
      some { r with level := r.level + 1, piece := [], done := r.done ++ [.enter (trim r.piece)] }
    else some { r with piece := r.piece ++ [c], depth := 1 }
  else if c = '}' then
    if r.level = 0 ∨ r.piece ≠ [] then none
    else some { r with level := r.level - 1, done := r.done ++ [.leave] }
  else if c = '(' ∨ c = '[' then some { r with piece := r.piece ++ [c], depth := 1 }
  else if c = ')' ∨ c = ']' then none
  else if blank c ∧ r.piece = [] then some r
  else some { r with piece := r.piece ++ [c] }

/-- One character inside brackets. -/
def CodeReader.inner (r : CodeReader) (c : Char) : CodeReader :=
  { r with
    piece := r.piece ++ [c]
    depth := if c = '(' ∨ c = '[' ∨ c = '{' then r.depth + 1
      else if c = ')' ∨ c = ']' ∨ c = '}' then r.depth - 1
      else r.depth }

/-- One character. -/
def CodeReader.step (r : CodeReader) (c : Char) : Option CodeReader :=
  match r.quote with
  | some q =>
    let r := { r with piece := r.piece ++ [c] }
    if r.escaped then some { r with escaped := false }
    else if c = '\\' then some { r with escaped := true }
    else if c = q then some { r with quote := none }
    else some r
  | none =>
    if c = '"' ∨ c = '\'' then some { r with quote := some c, piece := r.piece ++ [c] }
    else if r.depth = 0 then r.plain c
    else some (r.inner c)

/-- The statements and blocks of a text. -/
def code (t : List Char) : Option (List Item) :=
  match t.foldlM CodeReader.step ⟨0, [], [], 0, none, false⟩ with
  | some ⟨0, is, [], 0, none, false⟩ => some is
  | _ => none

/-- A declaration as a reader of the file sees it: the text, and what stands between the braces of a function or of a
    structure (which is left out of the text). -/
structure Entry where
  scopes : List Scope
  text : List Char
  inside : Option (Option (List Item))
  deriving DecidableEq, Repr

/-- The words in front of the members of a structure. -/
def structWords : List (List Char) := ["struct".toList, "typedef".toList]

/-- The declaration with its statements or members. -/
def Decl.entry (d : Decl) : Entry :=
  match d.body with
  | some b => ⟨d.scopes, d.text, some (code b)⟩
  | none =>
    if '{' ∈ d.text ∧ structWords.contains (d.text.takeWhile identChar) then
      let front := d.text.takeWhile (· != '{')
      let rest := d.text.dropWhile (· != '{')
      let back := rest.reverse.takeWhile (· != '}')
      let inner := ((rest.reverse.dropWhile (· != '}')).drop 1).reverse.drop 1
      ⟨d.scopes, front ++ '{' :: '}' :: back.reverse, some (code inner)⟩
    else ⟨d.scopes, d.text, none⟩

end EasyMock.CFile
