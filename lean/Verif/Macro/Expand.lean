import Verif.Macro.Model

/-! # Expansion of macros

ISO C 6.10.3.1, 6.10.3.3 and 6.10.3.4, with the hide sets of Prosser's algorithm (a token carries the names of the macros whose
replacement it comes from; it is not replaced by them again).  Written without regard to /repo.

Not represented: `#` and `##` (a replacement list with one of them is not expanded: `none`). -/

namespace EasyMock.Macro

/-- A token and the macros which do not replace it any more. -/
structure Hidden where
  text : List Char
  hide : List (List Char)
  deriving DecidableEq, Repr

/-- The arguments behind `(`, the hide set of `)` and what follows it; `depth` open parentheses inside the argument `cur`. -/
def arguments : Nat → List Hidden → List Hidden → Option (List (List Hidden) × List (List Char) × List Hidden)
  | _, _, [] => none
  | depth, cur, t :: r =>
    if t.text = ['('] then arguments (depth + 1) (cur ++ [t]) r
    else if t.text = [')'] then
      if depth = 0 then some ([cur], t.hide, r) else arguments (depth - 1) (cur ++ [t]) r
    else if t.text = [','] ∧ depth = 0 then (arguments 0 [] r).map (fun x => (cur :: x.1, x.2))
    else arguments depth (cur ++ [t]) r

/-- The arguments of `...`, with the commas between them. -/
def joined : List (List Hidden) → List Hidden
  | [] => []
  | [a] => a
  | a :: b :: r => a ++ ⟨[','], []⟩ :: joined (b :: r)

/-- Which argument belongs to which parameter. -/
def bindNames (v : Variadic) : List (List Char) → List (List Hidden) → Option (List (List Char × List Hidden))
  | n :: ns, a :: as => (bindNames v ns as).map ((n, a) :: ·)
  | _ :: _, [] => none
  | [], as => match v with
    | .no => if as = [] then some [] else none
    | .dots => some [("__VA_ARGS__".toList, joined as)]
    | .named n => some [(n, joined as)]

def bindArgs (f : Formals) (as : List (List Hidden)) : Option (List (List Char × List Hidden)) :=
  if f.names = [] ∧ f.variadic = .no then (if as = [[]] then some [] else none) else bindNames f.variadic f.names as

/-- The replacement list with the arguments in place of the parameters. -/
def substitute (args : List (List Char × List Hidden)) (body : List (List Char)) : List Hidden :=
  (body.map (fun t => match args.find? (fun a => a.1 == t) with
    | some a => a.2
    | none => [⟨t, []⟩])).flatten

/-- `w` joins the hide set of every token. -/
def hideIn (hs : List (List Char)) (l : List Hidden) : List Hidden := l.map (fun t => { t with hide := hs ++ t.hide })

/-- The tokens of a text after the replacement of macros; `fuel` bounds the number of steps. -/
def expand (T : List Char → Option Meaning) : Nat → List Hidden → Option (List Hidden)
  | 0, _ => none
  | _ + 1, [] => some []
  | fuel + 1, t :: r =>
    if !isIdent t.text || t.hide.contains t.text then (expand T fuel r).map (t :: ·)
    else match T t.text with
      | none => (expand T fuel r).map (t :: ·)
      | some (none, body) =>
        if ['#', '#'] ∈ body then none
        else expand T fuel (hideIn (t.text :: t.hide) (body.map (⟨·, []⟩)) ++ r)
      | some (some f, body) =>
        match r with
        | [] => some [t]
        | p :: r' =>
          if p.text = ['('] then
            if ['#'] ∈ body ∨ ['#', '#'] ∈ body then none
            else do
              let x ← arguments 0 [] r'
              let args ← bindArgs f x.1
              let args' ← args.mapM (fun a => (expand T fuel a.2).map (a.1, ·))
              expand T fuel (hideIn (t.text :: t.hide.filter (x.2.1.contains ·)) (substitute args' body) ++ x.2.2)
          else (expand T fuel (p :: r')).map (t :: ·)

/-- The tokens of a piece of text after the replacement of macros. -/
def expandText (T : List Char → Option Meaning) (fuel : Nat) (l : List (List Char)) : Option (List (List Char)) :=
  (expand T fuel (l.map (⟨·, []⟩))).map (·.map (·.text))

end EasyMock.Macro
