/-!
# Parser: the functions on texts

Model of the functions of `src/easyMockGenerate/src/LLVMParser/LLVMParser.cpp` (PARSER) which handle source text:
`trim` 66-77, the fallback of `getFunAttrParamList` 309-346, `removeFromString` 351-369, the end of
`getFunctionReturnValue` 411-465, `removeComments` 526-541, `getDeclareString` 543-588, `eraseInString` 1088-1095.

Simplifications.
* A text is a list of characters; the texts which clang reads from the source file are inputs.
* `std::regex` (ECMAScript) is modelled for the patterns of the code only: `.` matches every character except `\n`
  and `\r`, as in libstdc++; `.*` is greedy.  The recursion depth of `std::regex` is not modelled.
* `std::isspace` of the "C" locale.
* In `getFunctionReturnValue` no attribute of the function is written by a macro (`removeAttr` does nothing); the
  lexer is modelled for identifiers, numbers and one-character tokens, and sees no comment.
-/

namespace EasyMock.Parser

/-- `std::isspace`. -/
def isSpace (c : Char) : Bool :=
  c == ' ' || c == '\t' || c == '\n' || c == '\x0b' || c == '\x0c' || c == '\r'

/-- `trim`, PARSER:66-77. -/
def trim (s : List Char) : List Char := ((s.dropWhile isSpace).reverse.dropWhile isSpace).reverse

/-! ## Attributes -/

/-- The loop over the arguments, PARSER:327-345: `s` is the text behind `curPos`. -/
def splitArgs (s : List Char) : List (List Char) :=
  let p := s.takeWhile (· != ',')
  match _h : s.drop p.length with
  | [] => [trim p]
  | _ :: r => trim p :: splitArgs r
termination_by s.length
decreasing_by
  have h2 := congrArg List.length _h
  simp only [List.length_drop, List.length_cons] at h2
  omega

/-- The arguments of an attribute whose text is `s`, PARSER:325-345. -/
def attrArgs (s : List Char) : List (List Char) :=
  match s.dropWhile (· != '(') with
  | [] => []
  | _ :: r => splitArgs r

/-! ## Regular expressions

A pattern is a function which maps a text to the text behind the match at its start. -/

/-- A character which `.` does not match. -/
def isLineEnd (c : Char) : Bool := c == '\n' || c == '\r'

/-- `.*` followed by the pattern `f`. -/
def greedy (f : List Char → Option (List Char)) : List Char → Option (List Char)
  | [] => f []
  | c :: r => if isLineEnd c then f (c :: r) else (greedy f r).or (f (c :: r))

/-- The characters `p`. -/
def literal (p s : List Char) : Option (List Char) := if p.isPrefixOf s then some (s.drop p.length) else none

/-- `std::regex_replace(s, m, "")`; no pattern of the code matches the empty text. -/
def eraseMatches (m : List Char → Option (List Char)) : List Char → List Char
  | [] => []
  | c :: r =>
    match m (c :: r) with
    | none => c :: eraseMatches m r
    | some r' => if r'.length < r.length + 1 then eraseMatches m r' else c :: eraseMatches m r
termination_by s => s.length

/-! ## Comments -/

/-- The pattern `//.*\n`, PARSER:528. -/
def lineComment (s : List Char) : Option (List Char) := (literal ['/', '/'] s).bind (greedy (literal ['\n']))

/-- The pattern `/\*.*\*/`, PARSER:537. -/
def blockComment (s : List Char) : Option (List Char) := (literal ['/', '*'] s).bind (greedy (literal ['*', '/']))

/-- The loop PARSER:530-536. -/
def newlineToSpace (c : Char) : Char := if c == '\n' then ' ' else c

/-- `removeComments`, PARSER:526-541. -/
def removeComments (s : List Char) : List Char :=
  eraseMatches blockComment ((eraseMatches lineComment s).map newlineToSpace)

/-! ## Declarations -/

/-- `trimToFirstInstanceOf`, PARSER:561-569. -/
def trimToFirst (c : Char) (s : List Char) : List Char := if s.contains c then trim (s.takeWhile (· != c)) else s

/-- A character at which the loop PARSER:573-582 stops. -/
def isStop (c : Char) : Bool := c == ' ' || c == '\n' || c == '\r' || c == '\t' || c == '*' || c == ')'

/-- The loop PARSER:573-582. -/
def popName (s : List Char) : List Char := (s.reverse.dropWhile (fun c => !isStop c)).reverse

/-- `getDeclareString` on the source text `s`, PARSER:545-587. -/
def declareString (fieldDecl : Bool) (s : List Char) : List Char :=
  trim (removeComments
    (if s.contains '{' then s.takeWhile (· != '{')
     else popName (if fieldDecl then trimToFirst '[' (trimToFirst ',' s) else s)))

/-- `eraseInString`, PARSER:1088-1095. -/
def eraseFirst (p : List Char) : List Char → List Char
  | [] => []
  | c :: r => if p.isPrefixOf (c :: r) then (c :: r).drop p.length else c :: eraseFirst p r

/-- `)`, blanks, `)`: the end of the pattern of PARSER:426; `whole` for `std::regex_match`. -/
def attrEnd (whole : Bool) (s : List Char) : Option (List Char) :=
  match (literal [')'] s).bind (fun r => literal [')'] (r.dropWhile isSpace)) with
  | some r => if whole && !r.isEmpty then none else some r
  | none => none

/-- The pattern of PARSER:426. -/
def attrPattern (whole : Bool) (s : List Char) : Option (List Char) :=
  (literal "__attribute__".toList s).bind fun r =>
  (literal ['('] (r.dropWhile isSpace)).bind fun r =>
  (literal ['('] (r.dropWhile isSpace)).bind (greedy (attrEnd whole))

/-- `removeFromString` for a macro name, PARSER:351-369. -/
def removeMacro (name : List Char) (hasParameters : Bool) (s : List Char) : List Char :=
  eraseMatches (if hasParameters then fun s => (literal (name ++ ['(']) s).bind (greedy (literal [')'])) else literal name) s

/-- A character of an identifier. -/
def isIdent (c : Char) : Bool := c.isAlphanum || c == '_'

/-- The next token of the text, blanks being skipped. -/
def rawToken (s : List Char) : List Char :=
  match s.dropWhile isSpace with
  | [] => []
  | c :: r => if isIdent c then c :: r.takeWhile isIdent else [c]

/-- What the parser knows about a macro: its definition and whether it has parameters. -/
abbrev MacroInfo := List Char → Option (List Char × Bool)

/-- The macro is removed from the return type, PARSER:445-454. -/
def removable (ms : MacroInfo) (tok : List Char) : Option Bool :=
  match ms tok with
  | some (d, p) => if d.isEmpty || (attrPattern true d).isSome then some p else none
  | none => none

/-- The loop PARSER:434-456: `s` is the source text from `itrSource` to the name of the function. -/
def removeMacros (ms : MacroInfo) (name : List Char) (s decl : List Char) : List Char :=
  let tok := rawToken (s ++ name)
  if _h : s.length = 0 ∨ tok.length = 0 then decl
  else removeMacros ms name (s.drop tok.length)
    (match removable ms tok with
     | some p => removeMacro tok p decl
     | none => decl)
termination_by s.length
decreasing_by
  simp only [List.length_drop, tok] at *
  omega

/-- The declared string of the return value of the function `name`, `s` being the source text up to the name,
    PARSER:411-465. -/
def returnString (ms : MacroInfo) (name s : List Char) : List Char :=
  let d := eraseMatches (attrPattern false) (removeMacros ms name s (declareString false s))
  trim (eraseFirst "static ".toList (eraseFirst "extern ".toList (eraseFirst "inline ".toList d)))

end EasyMock.Parser
