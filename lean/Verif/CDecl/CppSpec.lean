import Verif.CDecl.Spec

/-! # CDecl: how a C++ programmer reads a declaration of a function

`CDecl.read` rejects templates.  This reader cuts the list of parameters at its commas, and reads each of them: a parameter whose
type is a template with one type as its argument, or any other parameter as `CDecl.read` reads it. -/

namespace EasyMock.CDecl

/-- The pieces of a list between the commas which are in no bracket; `d` brackets are open, `acc` is the piece so far. -/
def cut (d : Nat) (acc : List Char) : List Char → List (List Char)
  | [] => [acc]
  | c :: cs =>
    if c = ',' ∧ d = 0 then acc :: cut 0 [] cs
    else cut (if c = '(' ∨ c = '<' then d + 1 else if c = ')' ∨ c = '>' then d - 1 else d) (acc ++ [c]) cs

/-- A parameter: its name and its type, which may be a template of a type. -/
inductive Arg where
  | plain (name : List Char) (s : Sem)
  | template (w : List Char) (s : Sem) (name : List Char)
  deriving DecidableEq

/-- A name. -/
def isName (w : List Char) : Bool := !w.isEmpty && w.all wordChar && !isQual w

/-- What is left without the spaces in front. -/
def skip (t : List Char) : List Char := t.dropWhile (· == ' ')

/-- A parameter.  A text is a type if a name behind it is declared with a type. -/
def readArg (t : List Char) : Option Arg :=
  if '<' ∈ t then
    let w := skip (t.takeWhile (· != '<'))
    let rest := (t.dropWhile (· != '<')).drop 1
    let inner := rest.takeWhile (· != '>')
    let name := skip ((rest.dropWhile (· != '>')).drop 1)
    match read (String.ofList inner ++ " x") with
    | some (['x'], s) => if isName w ∧ isName name then some (.template w s name) else none
    | _ => none
  else (read (String.ofList t)).map (fun d => .plain d.1 d.2)

/-- All parameters. -/
def readAll : List (List Char) → Option (List Arg)
  | [] => some []
  | t :: ts =>
    match readArg t, readAll ts with
    | some a, some l => some (a :: l)
    | _, _ => none

/-- A declaration of a function which returns nothing: its name and its parameters. -/
def readProcedure (s : String) : Option (List Char × List Arg) :=
  let head := s.toList.takeWhile (· != '(')
  let rest := (s.toList.dropWhile (· != '(')).drop 1
  match read (String.ofList head), rest.getLast? with
  | some (n, .named [['v', 'o', 'i', 'd']]), some ')' =>
    (if rest.dropLast = [] then some [] else readAll (cut 0 [] rest.dropLast)).map (fun l => (n, l))
  | _, _ => none

/-- A member, with the name it is initialised with. -/
def readMember (t : List Char) : Option (Arg × Option (List Char)) :=
  if '{' ∈ t then
    let rest := (t.dropWhile (· != '{')).drop 1
    match readArg (t.takeWhile (· != '{')), rest.getLast?, lexFrom [] rest.dropLast with
    | some a, some '}', [.word w] => some (a, some w)
    | _, _, _ => none
  else (readArg t).map (fun a => (a, none))

end EasyMock.CDecl
