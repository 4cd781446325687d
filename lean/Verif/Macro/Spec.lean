import Verif.Basic

/-! # A preprocessor which reads directives

Written from ISO C 6.4 (lexical elements), 6.10.1 (conditional inclusion) and 6.10.3 (macro replacement) and from the C++
standard where the two differ, not from /repo: it says what the text of the generated header means to the compiler of the tests.
The input is a list of characters after the translation phases 1 and 2 (no trigraphs, no lines joined by `\`).

Not read (`none`): comments `/* */`, raw strings, unterminated literals, and the directives other than `#define`, `#undef`,
`#ifdef`, `#ifndef`, `#endif`. -/

namespace EasyMock.Macro

/-! ## Preprocessing tokens -/

def digit (c : Char) : Bool := '0' ≤ c && c ≤ '9'

/-- The characters an identifier may start with; `$` as in gcc and clang, and every character outside ASCII. -/
def identStart (c : Char) : Bool :=
  ('a' ≤ c && c ≤ 'z') || ('A' ≤ c && c ≤ 'Z') || c == '_' || c == '$' || 128 ≤ c.toNat

def identChar (c : Char) : Bool := identStart c || digit c

/-- White space inside a line. -/
def blank (c : Char) : Bool := c == ' ' || c == '\t'

/-- The punctuators of more than one character, longest first; the ones of C++ only if `cpp`. -/
def punctuators (cpp : Bool) : List (List Char) :=
  [['%', ':', '%', ':'], ['.', '.', '.'], ['<', '<', '='], ['>', '>', '=']] ++
  (if cpp then [['-', '>', '*'], ['<', '=', '>']] else []) ++
  [['-', '>'], ['+', '+'], ['-', '-'], ['<', '<'], ['>', '>'], ['<', '='], ['>', '='], ['=', '='], ['!', '='], ['&', '&'],
   ['|', '|'], ['*', '='], ['/', '='], ['%', '='], ['+', '='], ['-', '='], ['&', '='], ['^', '='], ['|', '='], ['#', '#'],
   ['<', ':'], [':', '>'], ['<', '%'], ['%', '>'], ['%', ':']] ++
  (if cpp then [[':', ':'], ['.', '*']] else [])

/-- The prefixes of character constants and strings, and those of raw strings. -/
def prefixes : List (List Char) := [['L'], ['u'], ['U'], ['u', '8']]
def rawPrefixes : List (List Char) := [['R'], ['L', 'R'], ['u', 'R'], ['U', 'R'], ['u', '8', 'R']]

/-- The rest of a number, 6.4.8: digits, letters, points, signs behind an exponent letter, and in C++ the separators `'`. -/
def numberTail (cpp : Bool) : List Char → List Char × List Char
  | [] => ([], [])
  | [c] => if identChar c || c == '.' then ([c], []) else ([], [c])
  | c :: d :: r =>
    if (c == 'e' || c == 'E' || c == 'p' || c == 'P') && (d == '+' || d == '-') then
      let x := numberTail cpp r
      (c :: d :: x.1, x.2)
    else if cpp && c == '\'' && identChar d then
      let x := numberTail cpp r
      (c :: d :: x.1, x.2)
    else if identChar c || c == '.' then
      let x := numberTail cpp (d :: r)
      (c :: x.1, x.2)
    else ([], c :: d :: r)

/-- What follows the opening quote `q`, up to the closing one. -/
def quoted (q : Char) : List Char → Option (List Char × List Char)
  | [] => none
  | [c] => if c == q then some ([c], []) else none
  | c :: d :: r =>
    if c == q then some ([c], d :: r)
    else if c == '\\' then (quoted q r).map (fun x => (c :: d :: x.1, x.2))
    else (quoted q (d :: r)).map (fun x => (c :: x.1, x.2))

/-- The suffix of a literal, in C++. -/
def suffix (cpp : Bool) (l : List Char) : List Char × List Char :=
  match l with
  | c :: r => if cpp && identStart c then ((c :: r).takeWhile identChar, (c :: r).dropWhile identChar) else ([], c :: r)
  | [] => ([], [])

/-- A character constant or a string whose opening quote is `q`. -/
def literal (cpp : Bool) (q : Char) (r : List Char) : Option (List Char × List Char) :=
  (quoted q r).map (fun x => (q :: x.1 ++ (suffix cpp x.2).1, (suffix cpp x.2).2))

/-- Behind the letters and digits `w`: a quote makes them the prefix of a literal, if there is such a prefix. -/
def wordAt (cpp : Bool) (w l : List Char) : Option (List Char × List Char) :=
  match l with
  | [] => some (w, [])
  | c :: r =>
    if c == '"' && rawPrefixes.contains w then none
    else if (c == '"' || c == '\'') && prefixes.contains w then (literal cpp c r).map (fun x => (w ++ x.1, x.2))
    else some (w, c :: r)

/-- An identifier, or a literal with a prefix. -/
def word (cpp : Bool) (l : List Char) : Option (List Char × List Char) :=
  wordAt cpp (l.takeWhile identChar) (l.dropWhile identChar)

/-- The longest punctuator, otherwise one character. -/
def punctuator (cpp : Bool) (l : List Char) : Option (List Char × List Char) :=
  match (punctuators cpp).find? (fun p => p.isPrefixOf l) with
  | some p => some (p, l.drop p.length)
  | none => match l with
    | c :: r => some ([c], r)
    | [] => none

/-- One preprocessing token at the start of a text, 6.4. -/
def token (cpp : Bool) : List Char → Option (List Char × List Char)
  | [] => none
  | c :: r =>
    if identStart c then word cpp (c :: r)
    else if digit c || (c == '.' && r.head?.any digit) then some (c :: (numberTail cpp r).1, (numberTail cpp r).2)
    else if c == '"' || c == '\'' then literal cpp c r
    else punctuator cpp (c :: r)

/-- A token and whether white space precedes it. -/
structure Lexeme where
  spaced : Bool
  text : List Char
  deriving DecidableEq, Repr

/-- What comes next on a line. -/
inductive Next where
  | done
  | tok (t : Lexeme) (rest : List Char)
  | bad
  deriving DecidableEq, Repr

/-- The token at the start of a text which does not start with white space; a comment `//` ends the line. -/
def nextAt (cpp : Bool) (spaced : Bool) : List Char → Next
  | [] => .done
  | '/' :: '/' :: _ => .done
  | '/' :: '*' :: _ => .bad
  | r => match token cpp r with
    | some (t, rest) => .tok ⟨spaced, t⟩ rest
    | none => .bad

/-- The next token of a line. -/
def next (cpp : Bool) (l : List Char) : Next :=
  nextAt cpp (l.length != (l.dropWhile blank).length) (l.dropWhile blank)

/-- The tokens of a line; `fuel` bounds their number. -/
def lexN (cpp : Bool) : Nat → List Char → Option (List Lexeme)
  | 0, _ => none
  | fuel + 1, l => match next cpp l with
    | .done => some []
    | .bad => none
    | .tok t rest => (lexN cpp fuel rest).map (t :: ·)

/-- The tokens of a line: a token has at least one character. -/
def lex (cpp : Bool) (l : List Char) : Option (List Lexeme) := lexN cpp (l.length + 1) l

/-! ## Definitions -/

/-- How the last parameter of a macro takes several arguments. -/
inductive Variadic where
  /-- It does not. -/
  | no
  /-- `...`, named `__VA_ARGS__` in the replacement. -/
  | dots
  /-- `name...`, an extension of gcc and clang. -/
  | named (name : List Char)
  deriving DecidableEq, Repr

/-- The parameters of a function-like macro. -/
structure Formals where
  names : List (List Char)
  variadic : Variadic
  deriving DecidableEq, Repr

/-- A definition: `none` for an object-like macro; the tokens of the replacement with their separation. -/
structure Def where
  formals : Option Formals
  body : List Lexeme
  deriving DecidableEq, Repr

/-- The tokens of the replacement, on which the expansion depends. -/
def Def.tokens (d : Def) : List (List Char) := d.body.map (·.text)

/-- An identifier. -/
def isIdent : List Char → Bool
  | [] => false
  | c :: r => identStart c && r.all identChar

/-- The tokens between the parentheses, 6.10.3. -/
def formalsOf : List (List Char) → Option Formals
  | [] => none
  | [p] =>
    if p = ['.', '.', '.'] then some ⟨[], .dots⟩ else if isIdent p then some ⟨[p], .no⟩ else none
  | [p, q] => if isIdent p && q == ['.', '.', '.'] then some ⟨[], .named p⟩ else none
  | p :: q :: x :: r =>
    if isIdent p && q == [','] then (formalsOf (x :: r)).map (fun f => { f with names := p :: f.names }) else none

/-- The parameters behind `(` and what follows them. -/
def formals (l : List Lexeme) : Option (Formals × List Lexeme) :=
  match l.dropWhile (fun t => t.text != [')']) with
  | [] => none
  | _ :: body =>
    let ps := (l.takeWhile (fun t => t.text != [')'])).map (·.text)
    if ps.isEmpty then some (⟨[], .no⟩, body) else (formalsOf ps).map (·, body)

/-- What follows `#define`: the name, and the parameters if `(` follows it immediately. -/
def definition (cpp : Bool) (l : List Char) : Option (List Char × Def) :=
  match next cpp l with
  | .tok ⟨_, id⟩ rest =>
    if isIdent id then
      match rest with
      | '(' :: r => do
        let x ← formals (← lex cpp r)
        pure (id, ⟨some x.1, x.2⟩)
      | r => (lex cpp r).map (fun b => (id, ⟨none, b⟩))
    else none
  | _ => none

/-! ## Lines -/

/-- The macros defined: the definition of each name. -/
abbrev Table := List Char → Option Def

def Table.set (T : Table) (id : List Char) (d : Option Def) : Table := fun x => if x = id then d else T x

/-- The state: the macros, one flag per open conditional (whether its lines count). -/
structure State where
  table : Table
  conds : List Bool

def State.active (s : State) : Bool := s.conds.all id

/-- The name behind `#ifdef`, `#ifndef`, `#undef`. -/
def named (cpp : Bool) (l : List Char) : Option (List Char) :=
  match next cpp l with
  | .tok ⟨_, id⟩ rest => if isIdent id && next cpp rest == .done then some id else none
  | _ => none

/-- One line: a directive, or text (which defines nothing). -/
def line (cpp : Bool) (s : State) (l : List Char) : Option State :=
  match next cpp l with
  | .tok ⟨_, ['#']⟩ rest =>
    match next cpp rest with
    | .tok ⟨_, kw⟩ r =>
      if kw = ['i', 'f', 'n', 'd', 'e', 'f'] then
        (named cpp r).map (fun id => { s with conds := (s.table id).isNone :: s.conds })
      else if kw = ['i', 'f', 'd', 'e', 'f'] then
        (named cpp r).map (fun id => { s with conds := (s.table id).isSome :: s.conds })
      else if kw = ['e', 'n', 'd', 'i', 'f'] then
        match s.conds with
        | _ :: cs => some { s with conds := cs }
        | [] => none
      else if kw = ['d', 'e', 'f', 'i', 'n', 'e'] then
        (definition cpp r).map (fun x => if s.active then { s with table := s.table.set x.1 (some x.2) } else s)
      else if kw = ['u', 'n', 'd', 'e', 'f'] then
        (named cpp r).map (fun id => if s.active then { s with table := s.table.set id none } else s)
      else none
    | .done => some s
    | .bad => none
  | .bad => none
  | _ => some s

/-- The lines of a text. -/
def linesOf : List Char → List (List Char)
  | [] => []
  | c :: r =>
    if c = '\n' then [] :: linesOf r
    else match linesOf r with
      | l :: ls => (c :: l) :: ls
      | [] => [[c]]

def run (cpp : Bool) (s : State) (ls : List (List Char)) : Option State := ls.foldlM (line cpp) s

/-- The macros defined behind a text in which every conditional is closed. -/
def preprocess (cpp : Bool) (T : Table) (text : List Char) : Option Table :=
  match run cpp ⟨T, []⟩ (linesOf text) with
  | some ⟨T', []⟩ => some T'
  | _ => none

/-! ## Stringification -/

/-- The characters of the string `#x` makes from an argument, 6.10.3.2: one blank for white space between two tokens.  (The `\`
    put before `"` and `\` of literals is left out.) -/
def stringize : List Lexeme → List Char
  | [] => []
  | t :: ts => t.text ++ (ts.map (fun x => if x.spaced then ' ' :: x.text else x.text)).flatten

end EasyMock.Macro
