import Verif.Parser.Types
import Verif.Parser.Attr
import Verif.Parser.Namespace

/-!
# Parser: from clang's functions to the functions of the generator

Model of `getFunctionDeclaration`, `getFunctionReturnValue` and `getFunctionParameters`,
`src/easyMockGenerate/src/LLVMParser/LLVMParser.cpp` (PARSER) 161-213, 405-466, 488-524, 1074-1081.

Simplifications.
* The early returns of `getFunctionDeclaration` (142-159) are `Gen.parserKeeps`; here every function is kept.
* `parentData->addFunction(f)` (202-205) is not represented: member functions of a class are not part of its type (`methods` is
  empty).
* No type is implicit, so that the declared string of a parameter is taken from the source only for macros (516).
-/

namespace EasyMock.Parser

open EasyMock.Types (Ty Params FunDecl FnInfo Access)

/-- `clang::ParmVarDecl`: `macroText` is the source text from its beginning to its end location if it begins in a macro. -/
structure ParamD where
  q : Q
  name : String
  macroText : Option (List Char) := none

/-- A member function: the outermost record around it, the access, whether it is `const`; the parser does not ask for the
    records between that record and the function and for `volatile`. -/
structure MemberD where
  record : Nat
  /-- `none`: `AS_none` -/
  access : Option Access
  isConst : Bool := false
  inner : List String := []
  isVolatile : Bool := false

/-- `clang::FunctionDecl`: `retText` is the source text from its beginning to its name. -/
structure FnD where
  name : String
  ret : Q
  retText : List Char
  params : List ParamD
  variadic : Bool := false
  isInline : Bool := false
  isStatic : Bool := false
  hasBody : Bool := false
  noReturn : Bool := false
  attrs : List AttrD := []
  /-- The declaration contexts, innermost first. -/
  scopes : List Scope := []
  member : Option MemberD := none
  originFile : String := ""

/-- `getFunctionParameters`, PARSER:488-524. -/
def parseParams (D : Decls) (fuel : Nat) : List ParamD → Cache → Res Params
  | [], c => .ok (.nil, c)
  | p :: ps, c =>
    match parseQ D (parseRecord D fuel) [] false p.q c with
    | .error e => .error e
    | .ok (t, c) =>
      match parseParams D fuel ps c with
      | .error e => .error e
      | .ok (r, c) =>
        .ok (.cons (match p.macroText with
          | some s => declaratorString p.q t (declareString false s)
          | none => Types.declPrefix t) t p.name r, c)

/-- The class of a member function and its access, PARSER:167-196; `AS_none` is an assertion. -/
def parseMember (D : Decls) (fuel : Nat) : Option MemberD → Cache → Res (Option Ty × Access × Bool)
  | none, c => .ok ((none, .na, false), c)
  | some m, c =>
    match parseQ D (parseRecord D fuel) [] false (.mk false false (.record m.record)) c with
    | .error e => .error e
    | .ok (t, c) =>
      match m.access with
      | none => .error .stop
      | some a => .ok ((some t, a, m.isConst), c)

/-- `getFunctionDeclaration`, PARSER:161-213. -/
def parseFunction (D : Decls) (ms : MacroInfo) (fuel : Nat) (d : FnD) (c : Cache) : Res FunDecl :=
  match parseQ D (parseRecord D fuel) [] false d.ret c with
  | .error e => .error e
  | .ok (r, c) =>
    match parseParams D fuel d.params c with
    | .error e => .error e
    | .ok (ps, c) =>
      match parseMember D fuel d.member c with
      | .error e => .error e
      | .ok ((parent, access, classConst), c) =>
        .ok ({ info := { name := d.name, attributes := functionAttributes d.attrs d.noReturn, variadic := d.variadic,
                         inlined := d.isInline, isStatic := d.isStatic, access := access, classConst := classConst },
               retStr := declaratorString d.ret r (returnString ms d.name.toList d.retText), ret := r, params := ps,
               parent := parent, hasBody := d.hasBody, ns := getNamespace d.scopes, originFile := d.originFile }, c)

/-- The functions of a file, in the order of the visit, PARSER:127-138. -/
def parseFile (D : Decls) (ms : MacroInfo) (fuel : Nat) : List FnD → Cache → Res (List FunDecl)
  | [], c => .ok ([], c)
  | d :: ds, c =>
    match parseFunction D ms fuel d c with
    | .error e => .error e
    | .ok (f, c) =>
      match parseFile D ms fuel ds c with
      | .error e => .error e
      | .ok (fs, c) => .ok (f :: fs, c)

end EasyMock.Parser
