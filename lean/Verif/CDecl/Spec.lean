/-!
# CDecl: how a C or C++ programmer reads a declaration

A reader of declarations, independent of the generator: a text is cut into tokens, and the tokens are read from the left to
the right by a machine with a stack, one entry per open parameter list.  It reads declarations of one name built from words,
`*`, `&`, qualifiers, grouping parentheses and lists of named parameters, which a qualifier may follow (member functions);
anything else (arrays, templates, initialisers) is rejected.
-/

namespace EasyMock.CDecl

/-- A token. -/
inductive Tok where
  | word (w : List Char)
  | star | amp | open | close | comma
  | bad
  deriving DecidableEq, Repr

/-- The characters of identifiers and keywords; a name with its scopes (`A::f`) is one word. -/
def wordChar (c : Char) : Bool := c.isAlphanum || c == '_' || c == ':'

/-- A character which is not part of a word; a dot is a token of its own. -/
def symbol (c : Char) : List Tok :=
  if c ∈ [' ', '\t', '\n', '\x0b', '\x0c', '\r'] then []
  else if c = '*' then [.star]
  else if c = '&' then [.amp]
  else if c = '(' then [.open]
  else if c = ')' then [.close]
  else if c = ',' then [.comma]
  else if c = '.' then [.word ['.']]
  else [.bad]

/-- The word read so far. -/
def flush (acc : List Char) : List Tok := if acc = [] then [] else [.word acc]

/-- The tokens of a text, after the characters of a word. -/
def lexFrom (acc : List Char) : List Char → List Tok
  | [] => flush acc
  | c :: cs => if wordChar c then lexFrom (acc ++ [c]) cs else flush acc ++ symbol c ++ lexFrom [] cs

/-- The tokens of a text. -/
def lex (s : String) : List Tok := lexFrom [] s.toList

mutual
/-- A type, as a declaration says it: a name (of one or more words), or derived from a type.  The reader never finds an
    array. -/
inductive Sem where
  | named (words : List (List Char))
  | qual (q : List Char) (s : Sem)
  | ptr (s : Sem)
  | ref (s : Sem)
  | arr (size : Option Nat) (s : Sem)
  | fn (ret : Sem) (params : Sems) (variadic : Bool)

/-- The types of parameters. -/
inductive Sems where
  | nil
  | cons (s : Sem) (rest : Sems)
end

deriving instance DecidableEq for Sem, Sems

/-- Another parameter. -/
def Sems.snoc : Sems → Sem → Sems
  | .nil, s => .cons s .nil
  | .cons a rest, s => .cons a (rest.snoc s)

/-- The type qualifiers. -/
def isQual (w : List Char) : Bool :=
  w == "const".toList || w == "volatile".toList || w == "restrict".toList || w == "__restrict".toList

/-- What stands between a name and its type specifiers; `open` is a grouping parenthesis. -/
inductive Op where
  | star | amp | open
  | qual (q : List Char)
  deriving DecidableEq, Repr

/-- A layer of the type of the name. -/
inductive Layer where
  | ptr | ref
  | qual (q : List Char)
  | fn (params : Sems) (variadic : Bool)

/-- The layer an operator adds. -/
def Op.layer : Op → Layer
  | .star => .ptr
  | .amp => .ref
  | .qual q => .qual q
  | .open => .ptr

/-- The type with a layer around it. -/
def Layer.around : Layer → Sem → Sem
  | .ptr, s => .ptr s
  | .ref, s => .ref s
  | .qual q, s => .qual q s
  | .fn ps v, s => .fn s ps v

/-- The type with layers around it, the first one outermost. -/
def wrap (ls : List Layer) (s : Sem) : Sem := ls.foldr Layer.around s

/-- The type named by specifiers. -/
def spec (ws : List (List Char)) : Sem :=
  (ws.filter isQual).foldl (fun s q => .qual q s) (.named (ws.filter (fun w => !isQual w)))

/-- Where the reader is inside a declaration: in the specifiers; behind a parenthesis which follows them; in the pointer
    operators (last one first); behind the name, with the layers found so far. -/
inductive Phase where
  | spec (ws : List (List Char))
  | pend (ws : List (List Char))
  | ops (ws : List (List Char)) (l : List Op)
  | suffix (name : List Char) (ws : List (List Char)) (l : List Op) (ls : List Layer)

/-- A declaration whose parameters are being read. -/
structure Susp where
  name : List Char
  ws : List (List Char)
  l : List Op
  ls : List Layer
  params : Sems

/-- The declaration in which the reader is, and those around it. -/
abbrev State := Option (Phase × List Susp)

/-- The name and the type if the declaration ends here. -/
def finish : Phase → Option (List Char × Sem)
  | .spec ws =>
    match ws.getLast? with
    | none => none
    | some n => if ws.dropLast.filter (fun w => !isQual w) = [] ∨ isQual n then none else some (n, spec ws.dropLast)
  | .suffix n ws l ls => if .open ∈ l then none else some (n, wrap (ls ++ l.map Op.layer) (spec ws))
  | _ => none

/-- A closing parenthesis which ends a list of parameters. -/
def endParams (p : Phase) (s : Susp) : Option Phase :=
  match p, s.params with
  | .spec [], .nil => some (.suffix s.name s.ws s.l (s.ls ++ [.fn .nil false]))
  | .spec [['.'], ['.'], ['.']], ps => some (.suffix s.name s.ws s.l (s.ls ++ [.fn ps true]))
  | p, ps =>
    match finish p with
    | none => none
    | some (_, t) => some (.suffix s.name s.ws s.l (s.ls ++ [.fn (ps.snoc t) false]))

/-- One token in the specifiers. -/
def inSpec (ws : List (List Char)) (stk : List Susp) : Tok → State
  | .word w => some (.spec (ws ++ [w]), stk)
  | .star => some (.ops ws [.star], stk)
  | .amp => some (.ops ws [.amp], stk)
  | .open => some (.pend ws, stk)
  | .comma =>
    match stk, finish (.spec ws) with
    | s :: stk, some (_, t) => some (.spec [], { s with params := s.params.snoc t } :: stk)
    | _, _ => none
  | .close =>
    match stk with
    | s :: stk => (endParams (.spec ws) s).map (fun p => (p, stk))
    | [] => none
  | .bad => none

/-- One token of the text. -/
def step : State → Tok → State
  | none, _ => none
  | some (.spec ws, stk), t => inSpec ws stk t
  | some (.pend ws, stk), t =>
    match t with
    | .star => some (.ops ws [.star, .open], stk)
    | .amp => some (.ops ws [.amp, .open], stk)
    | .open => none
    | t =>
      match ws.getLast? with
      | none => none
      | some n =>
        if ws.dropLast.filter (fun w => !isQual w) = [] ∨ isQual n then none
        else inSpec [] ({ name := n, ws := ws.dropLast, l := [], ls := [], params := .nil } :: stk) t
  | some (.ops ws l, stk), t =>
    match t with
    | .star => some (.ops ws (.star :: l), stk)
    | .amp => some (.ops ws (.amp :: l), stk)
    | .open => some (.ops ws (.open :: l), stk)
    | .word w => if isQual w then some (.ops ws (.qual w :: l), stk) else some (.suffix w ws l [], stk)
    | _ => none
  | some (.suffix n ws l ls, stk), t =>
    match t with
    | .open => some (.spec [], { name := n, ws := ws, l := l, ls := ls, params := .nil } :: stk)
    | .close =>
      if .open ∈ l then
        some (.suffix n ws ((l.dropWhile (· ≠ .open)).drop 1) (ls ++ (l.takeWhile (· ≠ .open)).map Op.layer), stk)
      else
        match stk with
        | s :: stk => (endParams (.suffix n ws l ls) s).map (fun p => (p, stk))
        | [] => none
    | .comma =>
      match stk, finish (.suffix n ws l ls) with
      | s :: stk, some (_, t) => some (.spec [], { s with params := s.params.snoc t } :: stk)
      | _, _ => none
    | .word w =>
      match isQual w, ls.getLast? with
      | true, some (.fn ps v) => some (.suffix n ws l (ls.dropLast ++ [.qual w, .fn ps v]), stk)
      | _, _ => none
    | _ => none

/-- The name a declaration declares, and its type. -/
def read (s : String) : Option (List Char × Sem) :=
  match (lex s).foldl step (some (.spec [], [])) with
  | some (p, []) => finish p
  | _ => none

end EasyMock.CDecl
