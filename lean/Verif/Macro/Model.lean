import Verif.Gen.Model
import Verif.Macro.Spec

/-! # The macros of a header and the text written for them

PARSER is src/easyMockGenerate/src/LLVMParser/LLVMParser.cpp, GEN is
src/easyMockGenerate/src/CTemplateGenerator/CodeGeneratorCTemplate.cpp. -/

namespace EasyMock.Macro

open EasyMock.Gen (Directive macroTable macroText)

/-- A `clang::Token` by what `getTokenString` asks about it: whether it has an identifier (keywords have one), the spelling of
    its kind as a punctuator, or its data as a literal.  `other` are the tokens of none of these kinds (`tok::unknown`: a
    character no token starts with), with the character. -/
inductive Tok where
  | ident (name : String)
  | punct (spelling : String)
  | lit (data : String)
  | other (data : String)
  deriving DecidableEq, Repr

/-- `MacroBrowser::getTokenString`, PARSER:1204-1224. -/
def tokenString : Tok → String
  | .ident n => n
  | .punct s => s
  | .lit d => d
  | .other _ => ""

/-- What `clang::MacroInfo` answers: `isFunctionLike`, the names of `params()`, the replacement tokens. -/
structure Info where
  functionLike : Bool
  params : List String
  tokens : List Tok
  deriving DecidableEq, Repr

/-- The calls of the preprocessor. -/
inductive Event where
  | defined (id : Tok) (info : Info) (loc : String)
  | undefined (id : Tok)
  deriving DecidableEq, Repr

/-- `MacroDefined` and `MacroUndefined` up to what they do with the context, PARSER:1143-1189 and 1191-1193: the texts taken from
    the tokens.  (`Gen.directive` is the rest of them.) -/
def directiveOf : Event → Directive
  | .defined id info loc =>
    .define (tokenString id) (if info.functionLike then some info.params else none) (info.tokens.map tokenString) loc
  | .undefined id => .undef (tokenString id)

/-- The table after a header. -/
def tableOf (es : List Event) : List Gen.Macro := macroTable (es.map directiveOf)

/-- The section written for the macros with `--generate-types`, GEN:842-852 and 1263-1298.  The table is a `std::unordered_map`:
    `ms` are its entries in the order in which it is walked through. -/
def macroSection (ms : List Gen.Macro) : String := String.join (ms.map macroText)

/-! ## What the header says -/

/-- The characters of a token in the header. -/
def Tok.spelling : Tok → List Char
  | .ident n => n.toList
  | .punct s => s.toList
  | .lit d => d.toList
  | .other d => d.toList

/-- A definition in the mocked header. -/
structure Source where
  formals : Option Formals
  tokens : List Tok
  deriving DecidableEq, Repr

/-- A `#define` or `#undef` of the mocked header. -/
inductive Said where
  | define (id : String) (d : Source) (loc : String)
  | undef (id : String)
  deriving DecidableEq, Repr

/-- What a definition means to a preprocessor: the parameters and the tokens of the replacement. -/
abbrev Meaning := Option Formals × List (List Char)

def Source.meaning (d : Source) : Meaning := (d.formals, d.tokens.map Tok.spelling)

def Def.meaning (d : Def) : Meaning := (d.formals, d.tokens)

/-- The macros defined at the end of the header, 6.10.3.5: a definition lasts until `#undef`; preprocessors which accept another
    definition of the same name use the last one. -/
def defines (H : List Char → Option Meaning) : Said → List Char → Option Meaning
  | .define id d _ => fun x => if x = id.toList then some d.meaning else H x
  | .undef id => fun x => if x = id.toList then none else H x

def headerFrom (H : List Char → Option Meaning) (ds : List Said) : List Char → Option Meaning := ds.foldl defines H

def header (ds : List Said) : List Char → Option Meaning := headerFrom (fun _ => none) ds

/-- How clang represents the parameters: `...` is a parameter named `__VA_ARGS__`, `args...` one named `args`. -/
def Formals.params (f : Formals) : List String :=
  f.names.map String.ofList ++ (match f.variadic with
    | .no => []
    | .dots => ["__VA_ARGS__"]
    | .named n => [String.ofList n])

/-- The calls which clang makes. -/
def Said.event : Said → Event
  | .define id d loc => .defined (.ident id) ⟨d.formals.isSome, (d.formals.map Formals.params).getD [], d.tokens⟩ loc
  | .undef id => .undefined (.ident id)

end EasyMock.Macro
