import Verif.Parser.Text

/-!
# Parser: the attributes of a function

Model of `setFunctionAttribute`, `getFormatAttrParamList`, `getSectionAttrParamList` and `getFunAttrParamList`,
`src/easyMockGenerate/src/LLVMParser/LLVMParser.cpp` (PARSER) 243-349.

Simplification: an attribute is written in one file or in one macro, so that the text between the spelling locations of its
first and its last token (PARSER:309-325) is the text of the attribute without its last token.
-/

namespace EasyMock.Parser

/-- What clang knows of the arguments of an attribute. -/
inductive AttrArgs where
  /-- `FormatAttr`: the archetype, the index of the format string and of the first argument. -/
  | format (type : String) (idx first : Nat)
  /-- `SectionAttr`: the value of the string literal. -/
  | sect (name : String)
  /-- Every other attribute: the source text between its parentheses, if it has some. -/
  | other (text : Option (List Char))
  deriving DecidableEq, Repr

/-- `clang::Attr`: `getAttrName()`, null for an attribute which is no identifier, and the arguments. -/
structure AttrD where
  name : Option String
  args : AttrArgs
  deriving DecidableEq, Repr

/-- `getFormatAttrParamList` of `clangFunc->getAttr<clang::FormatAttr>()`, the first attribute of this kind,
    PARSER:270-277 and 302. -/
def formatArgs : List AttrD → List String
  | [] => []
  | ⟨_, .format t i f⟩ :: _ => [t, toString i, toString f]
  | _ :: r => formatArgs r

/-- `getSectionAttrParamList` of `clangFunc->getAttr<clang::SectionAttr>()`, PARSER:279-284 and 303. -/
def sectionArgs : List AttrD → List String
  | [] => []
  | ⟨_, .sect n⟩ :: _ => [n]
  | _ :: r => sectionArgs r

/-- The text read in the fallback, PARSER:309-325: the range ends where the last token starts. -/
def attrSource (name : String) : Option (List Char) → List Char
  | none => []
  | some b => name.toList ++ '(' :: b

/-- `getFunAttrParamList` of an attribute of a function with the attributes `all`, PARSER:286-349. -/
def attrParams (all : List AttrD) (name : String) : AttrArgs → List String
  | .format .. => formatArgs all
  | .sect _ => sectionArgs all
  | .other t => (attrArgs (attrSource name t)).map String.ofList

/-- The loop of `setFunctionAttribute` over the attributes `l` of a function with the attributes `all`, PARSER:245-260. -/
def attrLoop (all : List AttrD) : List AttrD → List (String × List String)
  | [] => []
  | ⟨none, _⟩ :: l => attrLoop all l
  | ⟨some n, a⟩ :: l => (n, attrParams all n a) :: attrLoop all l

/-- `setFunctionAttribute`, PARSER:243-268. -/
def functionAttributes (l : List AttrD) (noReturn : Bool) : List (String × List String) :=
  attrLoop l l ++ (if noReturn then [("noreturn", [])] else [])

end EasyMock.Parser
