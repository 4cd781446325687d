/-!
# CFile: how a compiler sees the text of a file

A reader of C and C++ files, independent of the generator.  The text is read in the phases of a compiler: lines which end with a
backslash are joined; comments are replaced by a blank and the text is cut into lines; directives are obeyed; what is left is cut
into the declarations and definitions of the file, each with the scopes around it.

Not represented: `#if`, `#else`, `#undef` and the expansion of macros (a file with such a directive is not read), trigraphs, raw
strings.  Included files are recorded, not read.
-/

namespace EasyMock.CFile

/-! ## Lines -/

/-- Joins the lines which end with a backslash; `pending` is a backslash not yet written. -/
def joinLines (pending : Bool) : List Char → List Char
  | [] => if pending then ['\\'] else []
  | c :: cs =>
    if pending then
      if c = '\n' then joinLines false cs
      else if c = '\\' then '\\' :: joinLines true cs
      else '\\' :: c :: joinLines false cs
    else if c = '\\' then joinLines true cs
    else c :: joinLines false cs

/-- Where the scanner is: in the code, behind a `/`, in a comment up to the end of the line, in the other kind of comment,
    behind a `*` in one, inside quotes, behind a backslash inside quotes. -/
inductive Mode where
  | code | slash | toEnd | block | star
  | quote (q : Char)
  | escape (q : Char)
  deriving DecidableEq, Repr

/-- The scanner: the line so far, without comments, and the lines before. -/
structure Scan where
  mode : Mode
  line : List Char
  done : List (List Char)
  deriving DecidableEq, Repr

/-- The line ends here. -/
def Scan.endLine (s : Scan) : Scan := ⟨.code, [], s.done ++ [s.line]⟩

/-- One character of the code. -/
def Scan.inCode (s : Scan) (c : Char) : Scan :=
  if c = '\n' then s.endLine
  else if c = '/' then { s with mode := .slash }
  else if c = '"' ∨ c = '\'' then { s with mode := .quote c, line := s.line ++ [c] }
  else { s with mode := .code, line := s.line ++ [c] }

/-- One character. -/
def Scan.step (s : Scan) (c : Char) : Scan :=
  match s.mode with
  | .code => s.inCode c
  | .slash =>
    if c = '/' then { s with mode := .toEnd }
    else if c = '*' then { s with mode := .block, line := s.line ++ [' '] }
    else { s with line := s.line ++ ['/'] }.inCode c
  | .toEnd => if c = '\n' then s.endLine else s
  | .block => if c = '*' then { s with mode := .star } else s
  | .star => if c = '/' then { s with mode := .code } else if c = '*' then s else { s with mode := .block }
  | .quote q =>
    if c = q then { s with mode := .code, line := s.line ++ [c] }
    else if c = '\\' then { s with mode := .escape q, line := s.line ++ [c] }
    else { s with line := s.line ++ [c] }
  | .escape q => { s with mode := .quote q, line := s.line ++ [c] }

/-- The lines of a text, without comments; `none` if the text ends inside a line or a comment. -/
def linesOf (t : List Char) : Option (List (List Char)) :=
  match (joinLines false t).foldl Scan.step ⟨.code, [], []⟩ with
  | ⟨.code, [], ls⟩ => some ls
  | _ => none

/-! ## Declarations -/

/-- A scope at the level of the file. -/
inductive Scope where
  | space (name : List Char)
  | anonymous
  | externC
  deriving DecidableEq, Repr

/-- A declaration with the scopes around it, outermost first, or the definition of a function with its body. -/
structure Decl where
  scopes : List Scope
  text : List Char
  body : Option (List Char)
  deriving DecidableEq, Repr

/-- White space. -/
def blank (c : Char) : Bool := c == ' ' || c == '\t' || c == '\n' || c == '\x0b' || c == '\x0c' || c == '\r'

/-- The characters of identifiers. -/
def identChar (c : Char) : Bool := c.isAlphanum || c == '_'

/-- A text without the white space around it. -/
def trim (t : List Char) : List Char := ((t.dropWhile blank).reverse.dropWhile blank).reverse

/-- The words of a text: the word so far, and the text. -/
def wordsFrom (acc : List Char) : List Char → List (List Char)
  | [] => if acc = [] then [] else [acc]
  | c :: cs =>
    if blank c then (if acc = [] then [] else [acc]) ++ wordsFrom [] cs else wordsFrom (acc ++ [c]) cs

/-- The words of a text. -/
def words (t : List Char) : List (List Char) := wordsFrom [] t

/-- What a brace opens. -/
inductive Opens where
  | scope (s : Scope)
  /-- the body of a function -/
  | definition
  /-- members, enumerators or an initialiser: the declaration goes on -/
  | part
  /-- nothing C++ knows -/
  | wrong
  deriving DecidableEq, Repr

/-- Words with a meaning. -/
def kwNamespace : List Char := "namespace".toList
@[inherit_doc kwNamespace] def kwExtern : List Char := "extern".toList
@[inherit_doc kwNamespace] def kwC : List Char := "\"C\"".toList
@[inherit_doc kwNamespace] def kwConst : List Char := "const".toList

/-- What the brace behind a text opens. -/
def opens (t : List Char) : Opens :=
  if words t = [kwExtern, kwC] then .scope .externC
  else if (words t).head? = some kwNamespace then
    match words t with
    | [_] => .scope .anonymous
    | [_, n] => if n.all identChar then .scope (.space n) else .wrong
    | _ => .wrong
  else if (trim t).getLast? = some ')' ∨ ((words t).getLast? = some kwConst ∧ ')' ∈ t) then .definition
  else .part

/-- Where the reader is: between the braces of scopes; inside the braces of a declaration; inside the body of a function.
    `inner` counts the braces open inside. -/
inductive Place where
  | top
  | inPart (inner : Nat)
  | inBody (header : List Char) (inner : Nat)
  deriving DecidableEq, Repr

/-- The state of the reader of declarations. -/
structure Reader where
  scopes : List Scope
  place : Place
  /-- the quote of the string which is open -/
  quote : Option Char
  /-- whether the character before was a backslash in a string -/
  escaped : Bool
  /-- the text since the last declaration, without blanks in front -/
  piece : List Char
  decls : List Decl
  deriving DecidableEq, Repr

/-- One character outside strings. -/
def Reader.plain (r : Reader) (c : Char) : Option Reader :=
  match r.place with
  | .top =>
    if c = '{' then
      match opens r.piece with
      | .scope s => some { r with scopes := r.scopes ++ [s], piece := [] }
      | .definition => some { r with place := .inBody (trim r.piece) 0, piece := [] }
      | .part => some { r with place := .inPart 0, piece := r.piece ++ [c] }
      | .wrong => none
    else if c = '}' then
      if r.scopes = [] ∨ trim r.piece ≠ [] then none else some { r with scopes := r.scopes.dropLast, piece := [] }
    else if c = ';' then
      if trim r.piece = [] then some { r with piece := [] }
      else some { r with piece := [], decls := r.decls ++ [⟨r.scopes, trim r.piece, none⟩] }
    else if blank c ∧ r.piece = [] then some r
    else some { r with piece := r.piece ++ [c] }
  | .inPart n =>
    let r := { r with piece := r.piece ++ [c] }
    if c = '{' then some { r with place := .inPart (n + 1) }
    else if c = '}' then some { r with place := if n = 0 then .top else .inPart (n - 1) }
    else some r
  | .inBody h n =>
    if c = '}' ∧ n = 0 then
      some { r with place := .top, piece := [], decls := r.decls ++ [⟨r.scopes, h, some r.piece⟩] }
    else
      let r := { r with piece := r.piece ++ [c] }
      if c = '{' then some { r with place := .inBody h (n + 1) }
      else if c = '}' then some { r with place := .inBody h (n - 1) }
      else some r

/-- One character. -/
def Reader.step (r : Reader) (c : Char) : Option Reader :=
  match r.quote with
  | some q =>
    let r := { r with piece := r.piece ++ [c] }
    if r.escaped then some { r with escaped := false }
    else if c = '\\' then some { r with escaped := true }
    else if c = q then some { r with quote := none }
    else some r
  | none =>
    if c = '"' ∨ c = '\'' then some { r with quote := some c, piece := r.piece ++ [c] } else r.plain c

/-! ## Directives -/

/-- The state of the reader of lines: the macros defined, one flag per open conditional (whether its text counts), the files
    included, and the reader of declarations. -/
structure File where
  macros : List (List Char)
  conds : List Bool
  includes : List (List Char)
  reader : Reader
  deriving DecidableEq, Repr

/-- Whether the text of the current line counts. -/
def File.active (f : File) : Bool := f.conds.all id

/-- The directives. -/
def kwIfndef : List Char := "ifndef".toList
@[inherit_doc kwIfndef] def kwIfdef : List Char := "ifdef".toList
@[inherit_doc kwIfndef] def kwEndif : List Char := "endif".toList
@[inherit_doc kwIfndef] def kwDefine : List Char := "define".toList
@[inherit_doc kwIfndef] def kwInclude : List Char := "include".toList

/-- A directive: its name and the text behind. -/
def File.directive (f : File) (name rest : List Char) : Option File :=
  let mac := rest.takeWhile identChar
  if name = kwIfndef then some { f with conds := (!f.macros.contains mac) :: f.conds }
  else if name = kwIfdef then some { f with conds := f.macros.contains mac :: f.conds }
  else if name = kwEndif then
    match f.conds with
    | [] => none
    | _ :: cs => some { f with conds := cs }
  else if name = kwDefine then
    some (if f.active then { f with macros := mac :: f.macros } else f)
  else if name = kwInclude then
    some (if f.active then { f with includes := f.includes ++ [trim rest] } else f)
  else none

/-- One line. -/
def File.line (f : File) (l : List Char) : Option File :=
  match l.dropWhile blank with
  | '#' :: rest =>
    let rest := rest.dropWhile blank
    f.directive (rest.takeWhile identChar) ((rest.dropWhile identChar).dropWhile blank)
  | _ =>
    if f.active then ((l ++ ['\n']).foldlM Reader.step f.reader).map (fun r => { f with reader := r }) else some f

/-- The reader at the beginning of a file. -/
def Reader.start : Reader := ⟨[], .top, none, false, [], []⟩

/-- What a file declares: the macros defined behind it, the files it includes and its declarations. -/
structure Seen where
  macros : List (List Char)
  includes : List (List Char)
  decls : List Decl
  deriving DecidableEq, Repr

/-- What a text declares if the macros are defined in front of it. -/
def readFile (macros : List (List Char)) (t : String) : Option Seen :=
  match linesOf t.toList with
  | none => none
  | some ls =>
    match ls.foldlM File.line ⟨macros, [], [], Reader.start⟩ with
    | some ⟨ms, [], is, ⟨[], .top, none, false, [], ds⟩⟩ => some ⟨ms, is, ds⟩
    | _ => none

/-- What texts declare which are included one after the other. -/
def readFiles (macros : List (List Char)) : List String → Option Seen
  | [] => some ⟨macros, [], []⟩
  | t :: ts =>
    match readFile macros t with
    | none => none
    | some s => (readFiles s.macros ts).map (fun r => ⟨r.macros, s.includes ++ r.includes, s.decls ++ r.decls⟩)

end EasyMock.CFile
