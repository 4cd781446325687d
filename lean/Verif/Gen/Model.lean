import Verif.Types.Model
import Verif.CmdLine.Model

/-!
# Gen: what the generator writes for every function

Model of `src/easyMockGenerate/src/CTemplateGenerator/CodeGeneratorCTemplate.cpp` (GEN) 150-455 and
598-920 (the parts of the templates listed below), 1027-1044 and 1257-1674, of
`src/ElementToMockContext.cpp`, `src/MacroDefinition.cpp`, and of the selection of functions and the
macro callbacks in `src/LLVMParser/LLVMParser.cpp` (PARSER) 140-165 and 1143-1225.

Simplifications.
* A `std::unordered_set<std::string>` of names is a list; only membership and emptiness are used. The
  macro table is an association list in order of insertion (the C++ iteration order is unspecified, so no
  theorem depends on the order).
* A template expansion is the text which ctemplate produces from the dictionary: a section is expanded once
  per sub-dictionary, looked up in the enclosing section dictionaries; an included template does not see the
  dictionaries of its includer; `X_separator` is expanded after every expansion of `X` but the last. Escaping
  is off (`DO_NOT_STRIP`, no modifiers).
* `TypeItf::unqualify` removes one qualifier; it does not terminate on a qualifier directly below a
  qualifier (C41), which C cannot express and the parser does not build.
* The text of a declarator whose type is an anonymous composite or enum is not modelled (GEN:2459-2468).
* The hash arithmetic is a parameter as in `Verif.Types.Model`; hash caches are in `Verif.Types.Cache`.
-/

namespace EasyMock.Gen

open EasyMock.Types

/-! ## Selection of the functions -/

/-- A function declaration met by the AST visitor; `fromMain` is
    `m_mainFile == canonical(originFile)`, PARSER:151-156. -/
structure Visited where
  decl : FunDecl
  fromMain : Bool

/-- `ParserConfig`, PARSER:84-92 (the fields which select functions). -/
structure ParserConfig where
  mockOnly : List String := []
  ignoreFuns : List String := []
  included : Bool := false

/-- The early returns of `getFunctionDeclaration`, PARSER:140-160: whether the declaration is kept. -/
def parserKeeps (c : ParserConfig) (f : Visited) : Bool :=
  if !c.mockOnly.isEmpty && !c.mockOnly.contains f.decl.info.name then false
  else if !c.ignoreFuns.isEmpty && c.ignoreFuns.contains f.decl.info.name then false
  else if !c.included && !f.fromMain then false
  else true

/-- The functions added to the context, in the order of the visit, PARSER:127-138. -/
def parsed (c : ParserConfig) (fs : List Visited) : List FunDecl :=
  (fs.filter (parserKeeps c)).map (·.decl)

/-- `TypeItf::unqualify`, TypeItf.cpp:121-129, on types without nested qualifiers. -/
def unqualify : Ty → Ty
  | .const _ t => t
  | t => t

/-- `p && p->getValues().empty()` for `p = type->unqualify()->asEnum()`, GEN:1029-1030. -/
def isEmptyEnum (t : Ty) : Bool :=
  match unqualify t with
  | .enum _ _ [] => true
  | _ => false

/-- The loop over the parameters, GEN:1035-1042. -/
def anyEmptyEnum : Params → Bool
  | .nil => false
  | .cons _ t _ rest => isEmptyEnum t || anyEmptyEnum rest

/-- `doesFunctionUsesEmptyEnum`, GEN:1027-1044. -/
def usesEmptyEnum (f : FunDecl) : Bool := isEmptyEnum f.ret || anyEmptyEnum f.params

/-- What the generator is told, CodeGeneratorItf.h:30-80. -/
structure Config where
  genTypes : Bool := false
  mockOnly : List String := []
  cpp : Bool := false
  attrs : List String := []

/-- The `continue`s of the loop over the functions but the last, GEN:1320-1357. -/
def skips (c : Config) (hasMacro : String → Bool) (f : FunDecl) : Bool :=
  ((f.info.inlined || f.hasBody || f.info.isStatic) && !c.genTypes) ||
  (!c.mockOnly.isEmpty && !c.mockOnly.contains f.info.name) ||
  hasMacro f.info.name ||
  (usesEmptyEnum f && !c.genTypes) ||
  (f.info.attributes.contains ("noreturn", []) && !c.genTypes)

/-- The loop over the functions, GEN:1312-1365; the second argument is `generatedElements`. -/
def selectLoop {H : Type} [DecidableEq H] (h : Hasher H) (c : Config) (hasMacro : String → Bool) :
    List FunDecl → List H → List FunDecl
  | [], _ => []
  | f :: fs, seen =>
    if skips c hasMacro f then selectLoop h c hasMacro fs seen
    else if seen.contains (declRawHash h f) then selectLoop h c hasMacro fs seen
    else f :: selectLoop h c hasMacro fs (declRawHash h f :: seen)

/-- The functions mocked for the functions of a context. -/
def selected {H : Type} [DecidableEq H] (h : Hasher H) (c : Config) (hasMacro : String → Bool)
    (fs : List FunDecl) : List FunDecl := selectLoop h c hasMacro fs []

/-! ## Macros -/

/-- `MacroDefinition`, MacroDefinition.cpp:3-13. -/
structure Macro where
  id : String
  params : List String
  definition : String
  origin : String
  deriving DecidableEq, Repr

/-- `ElementToMockContext::hasMacroDefine`, ElementToMockContext.cpp:24-27. -/
def hasMacroDefine (m : List Macro) (id : String) : Bool := m.any (fun x => x.id == id)

/-- `ElementToMockContext::addMacroDefine` with four arguments, ElementToMockContext.cpp:13-17:
    `try_emplace` leaves an existing entry unchanged. -/
def addMacroDefine (m : List Macro) (id : String) (params : List String) (d origin : String) : List Macro :=
  if hasMacroDefine m id then m else m ++ [⟨id, params, d, origin⟩]

/-- `ElementToMockContext::addMacroDefine` with two arguments, ElementToMockContext.cpp:3-6. -/
def addObjectMacro (m : List Macro) (id d : String) : List Macro := addMacroDefine m id [""] d ""

/-- `ElementToMockContext::deleteMacroDefine`, ElementToMockContext.cpp:19-22. -/
def deleteMacroDefine (m : List Macro) (id : String) : List Macro := m.filter (fun x => x.id != id)

/-- `ElementToMockContext::getMacroDefinition`, ElementToMockContext.cpp:29-37. -/
def getMacroDefinition (m : List Macro) (id : String) : Macro :=
  match m.find? (fun x => x.id == id) with
  | some x => x
  | none => ⟨"", [], "", ""⟩

/-- A preprocessor event as seen by the callbacks: a token is given by the text `getTokenString` returns
    for it (PARSER:1204-1224), `params = none` for an object-like macro. -/
inductive Directive where
  | define (id : String) (params : Option (List String)) (tokens : List String) (loc : String)
  | undef (id : String)
  deriving DecidableEq, Repr

/-- One parameter of a function-like macro, PARSER:1157-1168. -/
def macroParam (p : String) : String := if p == "__VA_ARGS__" then "..." else p

/-- The loop over the replacement tokens, PARSER:1170-1181. -/
def joinTokens (tokens : List String) : String :=
  tokens.foldl (fun d t => (if d.isEmpty then d else d.push ' ') ++ t) ""

/-- `MacroBrowser::MacroDefined` and `MacroUndefined`, PARSER:1143-1199. -/
def directive (m : List Macro) : Directive → List Macro
  | .define id params tokens loc =>
    if id.isEmpty then m
    else addMacroDefine m id ((params.getD []).map macroParam) (joinTokens tokens) loc
  | .undef id => if !hasMacroDefine m id then m else deleteMacroDefine m id

/-- The macro table after the header has been parsed. -/
def macroTable (ds : List Directive) : List Macro := ds.foldl directive []

/-- `fillInMacroDefinition` (GEN:1274-1296) and the template (GEN:843-851) for one macro. -/
def macroText (x : Macro) : String :=
  "#ifndef " ++ x.id ++ "\n// from: " ++ x.origin ++ "\n#define " ++ x.id ++
  (if x.params.isEmpty then "" else "(" ++ ",".intercalate x.params ++ ")" ++ " ") ++
  (if x.definition.isEmpty then "" else " " ++ x.definition) ++ "\n#endif //macro " ++ x.id ++ "\n\n"

/-! ## File names -/

/-- `boost::filesystem::path(p).filename()`, GEN:1227. -/
def fileName (path : String) : String :=
  String.ofList (path.toList.reverse.takeWhile (· ≠ '/')).reverse

/-- `::toupper` in the C locale, GEN:1309 and 1470. -/
def upperC (c : Char) : Char :=
  if 'a' ≤ c ∧ c ≤ 'z' then Char.ofNat (c.toNat - 32) else c

/-- `MOCKED_FILE_NAME_WITHOUT_EXT_UPPER`, GEN:1308-1311. -/
def guardStem (path : String) : String :=
  String.ofList (((CmdLine.stem (fileName path)).toList.map upperC).map (fun c => if c = '-' then '_' else c))

/-- The include guard of the generated header, GEN:820-821. -/
def guard (path : String) : String := "_" ++ guardStem path ++ "_EASYMOCK_H"

/-- The header included by the generated source file, GEN:495. -/
def includedHeader (path : String) : String := "easyMock_" ++ fileName path

/-- The name of the generated header, GEN:1249 and 2376-2380. -/
def headerName (path : String) : String := "easyMock_" ++ CmdLine.stem (fileName path) ++ ".h"

/-! ## Parameters -/

/-- Whether, and how, an output argument is offered for a parameter: `sized` when the size has to be given
    (`FUNCTION_VOID_PTR_OUT_SECTION`). -/
inductive Out where
  | none | plain | sized
  deriving DecidableEq, Repr

/-- `pointedType->getCType() == CTYPE_VOID`; `TypeItf::getCType` is `CTYPE_INVALID` for every other class,
    TypeItf.cpp:393-396. -/
def isVoid : Ty → Bool
  | .ctype .void _ _ => true
  | _ => false

/-- `composableTypeField && composableTypeField->isForwardDeclared()`, GEN:1660-1661. -/
def isForward : Ty → Bool
  | .comp _ _ _ _ _ fwd _ => fwd
  | _ => false

/-- The selection of the output arguments, GEN:1643-1672 (`pointedType` is `getMostPointedType`). -/
def output (t : Ty) : Out :=
  match unqualify t with
  | .ptr i p =>
    let pointed := mostPointed (.ptr i p)
    if !isConst pointed && !isImplicit pointed && !isFunctionType pointed then
      if isVoid pointed || isForward pointed then .sized else .plain
    else .none
  | _ => .none

mutual
/-- The dictionaries made for a list of parameters: type text, name, output argument and, for a pointer to a
    function, the declarator which follows the name. -/
inductive PList where
  | nil
  | cons (type name : String) (out : Out) (extra : XDecl) (rest : PList)

/-- The dictionary of `EXTRA_DECL_SECTION`: the parameters of the pointed function and, if it returns a
    pointer to a function, the declarator of that one, GEN:1538-1560. -/
inductive XDecl where
  | none
  | decl (params : PList) (inner : XDecl)
end

mutual
/-- `generateFunctionParamSection`, GEN:1562-1674: the dictionaries and the next value of
    `m_nbUnamedParam`. -/
def paramSection : Nat → Params → PList × Nat
  | k, .nil => (.nil, k)
  | k, .cons s t n rest =>
    let x := extraOf false k t
    let name := if n.isEmpty then "__easymock_param" ++ toString x.2 else n
    let r := paramSection (if n.isEmpty then x.2 + 1 else x.2) rest
    (.cons (declareString s t) name (output t) x.1 r.1, r.2)

/-- `generateExtraDecl` for the function behind a pointer, GEN:1603-1613 and 1547-1559. `below` says whether
    a pointer has been passed: then every layer is removed (`getRawType`), before only the qualifiers are
    (`unqualify()->asPointer()`). -/
def extraOf : Bool → Nat → Ty → XDecl × Nat
  | _, k, .ptr _ t => extraOf true k t
  | below, k, .const _ t => extraOf below k t
  | true, k, .ref _ t => extraOf true k t
  | true, k, .tdef _ _ t => extraOf true k t
  | true, k, .fn _ _ _ r ps =>
    let p := paramSection k ps
    let x := extraOf false p.2 r
    (.decl p.1 x.1, x.2)
  | _, k, _ => (.none, k)
end

/-- The section's entries in order. -/
def PList.entries : PList → List (String × String × Out × XDecl)
  | .nil => []
  | .cons t n o x rest => (t, n, o, x) :: rest.entries

/-- The names of the parameters. -/
def PList.names (ps : PList) : List String := ps.entries.map (fun e => e.2.1)

/-! ## Template expansion -/

/-- A section with a `_separator` section: the separator follows every expansion but the last. -/
def expandSep {α : Type} (body : α → String) (sep : String) : List α → String
  | [] => ""
  | [x] => body x
  | x :: y :: rest => body x ++ sep ++ expandSep body sep (y :: rest)

mutual
/-- `{{>EXTRA_DECL_SECTION}}` with `extraDeclTemplate`, GEN:941-946 (`extraTopDeclTemplate` expands in the
    same way, 948-952). -/
def XDecl.text : XDecl → String
  | .none => ""
  | .decl ps inner => ")(" ++ ps.text ++ ")" ++ inner.text

/-- `FUNCTION_PARAM_LIST(FUNCTION_PARAM_SECTION, "")`, GEN:279-303. -/
def PList.text : PList → String
  | .nil => ""
  | .cons t n _ x .nil => t ++ " " ++ n ++ x.text
  | .cons t n _ x (.cons t' n' o' x' rest) =>
    t ++ " " ++ n ++ x.text ++ ", " ++ PList.text (.cons t' n' o' x' rest)
end

/-- The dictionary of a function, GEN:1398-1536. -/
structure FunSection where
  name : String
  cls : Option String
  classConst : Bool
  ns : List String
  attrs : List (String × List String)
  ret : String
  /-- `FUNCTION_RETURN_VALUE_PARAM_SECTION` exists -/
  hasReturn : Bool
  /-- `EXTRA_TOP_LEVEL_DECL_SECTION` -/
  topExtra : XDecl
  /-- `EXTRA_DECL_SECTION` of the returned value -/
  retExtra : XDecl
  params : PList
  variadic : Bool

/-- `isRvVoid`, GEN:1498 (`isCType` is a flag of the object itself). -/
def returnsVoid (t : Ty) : Bool := (attrs t).cType && isVoid t && !isPointer (unqualify t)

/-- `generateFunctionAttributes`, GEN:1373-1396. -/
def keptAttrs (c : Config) (f : FunDecl) : List (String × List String) :=
  f.info.attributes.filter (fun a => c.attrs.contains a.1)

/-- `generateFunctionSection`, GEN:1398-1536, started with a value of `m_nbUnamedParam`: the pointed function
    of the return type is written twice, each time with new names for its unnamed parameters. -/
def funSection (c : Config) (k : Nat) (f : FunDecl) : FunSection × Nat :=
  let top := extraOf false k f.ret
  let hasReturn := !returnsVoid f.ret
  let rv := if hasReturn then extraOf false top.2 f.ret else (.none, top.2)
  let ps := paramSection rv.2 f.params
  ({ name := f.info.name, cls := f.parent.map (fun p => (Types.attrs p).name), classConst := f.info.classConst,
     ns := f.ns, attrs := keptAttrs c f, ret := declareString f.retStr f.ret, hasReturn := hasReturn,
     topExtra := top.1, retExtra := rv.1, params := ps.1, variadic := f.info.variadic }, ps.2)

/-- The sections of all functions, GEN:1313-1365. -/
def funSections (c : Config) : Nat → List FunDecl → List FunSection
  | _, [] => []
  | k, f :: fs => (funSection c k f).1 :: funSections c (funSection c k f).2 fs

/-- One attribute in `FUNCTION_ATTRIBUTE_DECLARATION_LIST`, GEN:318-327. -/
def attrText (a : String × List String) : String :=
  "__attribute__((" ++ a.1 ++
  (if a.2.isEmpty then "" else "(" ++ expandSep id ", " a.2 ++ ")") ++ ")) "

/-- `FUNCTION_PARAMETERS`, GEN:432 with 1525-1535. -/
def parameters (s : FunSection) : String :=
  "(" ++ s.params.text ++
  (if s.variadic then (if s.params.entries.isEmpty then "" else ", ") ++ "..." else "") ++ ")"

/-- `TEMPLATE_FUNCTION_TO_BE_MOCKED`, GEN:433: the definition of the mock, and the name it registers with
    the framework (GEN:763). -/
def mockSignature (s : FunSection) : String :=
  expandSep attrText " " s.attrs ++ s.ret ++ " " ++
  (match s.cls with | some c => c ++ "::" | none => "") ++ s.name ++ parameters s ++ s.topExtra.text ++
  (if s.classConst then " const" else "")

/-- `"::" FUNCTION_CLASS_NAME "* instance"` and one `", "` per expansion of `FUNCTION_PARAM_SECTION`,
    GEN:370-372 (704 and 713 for the calls, with `instance` only). -/
def instanceText (s : FunSection) (inst : String → String) : String :=
  match s.cls with
  | some c => inst c ++ String.join (s.params.entries.map (fun _ => ", "))
  | none => ""

/-- `IF_SECTION_EXISTS(FUNCTION_PARAM_LIST_SECTION, ", ")`; the section exists iff there is a parameter,
    GEN:1565-1569. -/
def commaIfParams (s : FunSection) : String := if s.params.entries.isEmpty then "" else ", "

/-- The entries of `FUNCTION_PARAM_PTR_SECTION`. -/
def FunSection.outs (s : FunSection) : List (String × String × Out × XDecl) :=
  s.params.entries.filter (fun e => e.2.2.1 != .none)

/-- `IF_SECTION_EXISTS(FUNCTION_PARAM_PTR_LIST_SECTION, ", ")`, GEN:1650-1654. -/
def commaIfOuts (s : FunSection) : String := if s.outs.isEmpty then "" else ", "

/-- The type of a matcher parameter, GEN:346-351. -/
def matcherType (c : Config) (type : String) : String :=
  if c.cpp then "::EasyMock::EasyMock_Matcher_Cpp<" ++ type ++ "> " else "EasyMock_Matcher "

/-- `FUNCTION_MATCHER_LIST`, GEN:346-356. -/
def matcherList (c : Config) (s : FunSection) : String :=
  expandSep (fun e => matcherType c e.1 ++ "easyMock_match_" ++ e.2.1) ", " s.params.entries

/-- `FUNCTION_PARAM_LIST(FUNCTION_PARAM_PTR_SECTION, MOCK_OUT_PREFIX)`, GEN:296-303; the dictionary of an
    output has no `EXTRA_DECL_SECTION`, GEN:1655-1670. -/
def outList (s : FunSection) : String :=
  expandSep (fun e => e.1 ++ " " ++ "out_" ++ e.2.1 ++
    (if e.2.2.1 == .sized then ", easyMock_size_t " ++ "out_" ++ e.2.1 ++ "_size" else "")) ", " s.outs

/-- `FUNCTION_EXPECT_RETURN_AND_OUTPUT_PARAM`, GEN:369-373: the parameters of `ExpectAndReturn`. -/
def expectParams (c : Config) (s : FunSection) : String :=
  instanceText s (fun n => "::" ++ n ++ "* instance") ++ s.params.text ++
  (if s.hasReturn then commaIfParams s ++ s.ret ++ " to_return" ++ s.retExtra.text else "") ++
  commaIfParams s ++ matcherList c s

/-- `FUNCTION_EXPECT_RETURN_AND_OUTPUT_SIGNATURE_PARAM`, GEN:384-385: the parameters of
    `ExpectReturnAndOutput` and of `ExpectReturnAndOutput_common`. -/
def expectOutputParams (c : Config) (s : FunSection) : String :=
  expectParams c s ++ commaIfOuts s ++ outList s

/-- The name of the `ExpectAndReturn` function, GEN:366-367. -/
def expectName (c : Config) (s : FunSection) : String :=
  (if c.cpp then "" else s.name ++ "_") ++ "ExpectAndReturn"

/-- The name of the `ExpectReturnAndOutput` function, GEN:378-379. -/
def expectOutputName (c : Config) (s : FunSection) : String :=
  (if c.cpp then "" else s.name ++ "_") ++ "ExpectReturnAndOutput"

/-- The name of the common function, GEN:381-382. -/
def commonName (s : FunSection) : String := s.name ++ "_ExpectReturnAndOutput_common"

/-- `FUNCTION_EXPECT_RETURN_COMMON_CALL_PARAM`, GEN:393-394. -/
def commonArgs (s : FunSection) : String :=
  expandSep (fun e => e.2.1) ", " s.params.entries ++
  (if s.hasReturn then commaIfParams s ++ "to_return" else "") ++
  commaIfParams s ++ expandSep (fun e => "easyMock_match_" ++ e.2.1) ", " s.params.entries

/-- The arguments `ExpectAndReturn` passes to the common function, GEN:703-706. -/
def expectCall (s : FunSection) : String :=
  instanceText s (fun _ => "instance") ++ commonArgs s ++ commaIfOuts s ++
  expandSep (fun e => "easyMock_null" ++ (if e.2.2.1 == .sized then ", 0" else "")) ", " s.outs

/-- The arguments `ExpectReturnAndOutput` passes to the common function, GEN:712-715. -/
def expectOutputCall (s : FunSection) : String :=
  instanceText s (fun _ => "instance") ++ commonArgs s ++ commaIfOuts s ++
  expandSep (fun e => "out_" ++ e.2.1 ++
    (if e.2.2.1 == .sized then ", " ++ "out_" ++ e.2.1 ++ "_size" else "")) ", " s.outs

/-- The declarations the header offers for a function, GEN:907-910 (without namespaces). -/
def headerDecls (c : Config) (s : FunSection) : List String :=
  ["void " ++ expectName c s ++ "(" ++ expectParams c s ++ ");"] ++
  (if s.outs.isEmpty then []
   else ["void " ++ expectOutputName c s ++ "(" ++ expectOutputParams c s ++ ");"])

/-! ## Names used by the generated code -/

/-- The file-scope symbols of the generated source for a function without namespace and class in C mode:
    the mock (GEN:609), the data type (596), the common function (598, 719), the mock object (599), the
    default result (601-606), the Expect functions (701, 710). -/
def fileSymbols (s : FunSection) : List String :=
  [s.name, "_" ++ s.name ++ "_data", s.name ++ "_ExpectReturnAndOutput_common", "mocked_" ++ s.name] ++
  (if s.hasReturn then ["dummyRes_" ++ s.name] else []) ++
  [s.name ++ "_ExpectAndReturn"] ++ (if s.outs.isEmpty then [] else [s.name ++ "_ExpectReturnAndOutput"])

/-- `FUNCTION_CLASS_NAME "_" FUNCTION_NAME`, GEN:414-421; the name of the class is empty for a function which is no
    member of one. -/
def dataPrefix (s : FunSection) : String := s.cls.getD "" ++ "_" ++ s.name

/-- The object of a member function, GEN:370 and 567-569. -/
def instanceNames (s : FunSection) : List String := if s.cls.isSome then ["instance"] else []

/-- The members of the data structure of a function without reference parameters and results, GEN:565-596: the object,
    parameter and matcher for every parameter, the returned value, the outputs. -/
def dataMembers (s : FunSection) : List String :=
  instanceNames s ++ (s.params.entries.map (fun e => [e.2.1, dataPrefix s ++ "_match_" ++ e.2.1])).flatten ++
  (if s.hasReturn then [dataPrefix s ++ "_returnValue"] else []) ++
  (s.outs.map (fun e => ("out_" ++ e.2.1) ::
    (if e.2.2.1 == .sized then ["out_" ++ e.2.1 ++ "_size"] else []))).flatten

/-- The names of the parameters of the `ExpectReturnAndOutput` functions, in order. -/
def expectNames (s : FunSection) : List String :=
  instanceNames s ++ s.params.names ++ (if s.hasReturn then ["to_return"] else []) ++
  s.params.names.map (fun n => "easyMock_match_" ++ n) ++
  (s.outs.map (fun e => ("out_" ++ e.2.1) ::
    (if e.2.2.1 == .sized then ["out_" ++ e.2.1 ++ "_size"] else []))).flatten

/-- The variables declared in the outermost block of the mock, GEN:611-630 and 679. -/
def mockLocals (s : FunSection) : List String :=
  ["printCallStack", "checkCallsOrder"] ++ (if s.hasReturn then ["default_res"] else []) ++
  ["currentDataCall", "currentCall"]

/-- The variables declared before `&param` is evaluated in the block which checks a parameter, including the
    one whose initialiser it is (in C the scope starts before the initialiser), GEN:650-651 and 664-665. -/
def checkLocals : List String := ["errorMessage", "curCallVal"]

/-- What an identifier denotes inside the mock. -/
inductive Denotes where
  | parameter (i : Nat) | outerLocal | innerLocal | global
  deriving DecidableEq, Repr

/-- The object `x` in `(void *) &x` (GEN:651, 665) for a parameter named `x`: the innermost declaration in
    scope. Parameters and outermost block share one scope, the blocks of the checks are nested in it. -/
def resolveCheck (s : FunSection) (x : String) : Denotes :=
  if x ∈ checkLocals then .innerLocal
  else if x ∈ mockLocals s then .outerLocal
  else if x ∈ s.params.names then .parameter (s.params.names.idxOf x)
  else .global

/-- The functions, types and variables at file scope which the mock of a C function uses, GEN:611-690: those
    of the framework, the mock object, the default result and the data type. -/
def mockGlobals (s : FunSection) : List String :=
  ["easyMock_bool", "easyMock_printCallStack", "easyMock_checkCallsOrder", "easyMock_memcpy",
   "MockedFunction_addActualCall", "MockedFunction_getName", "MockedFunction_getCurrentCallParam",
   "MockedFunction_getNbActualCall", "easyMock_addError", "EasyMock_Matcher", "easyMock_popCurrentCall",
   "cstring_compare_const_char", "cstring_c_str", "mocked_" ++ s.name, "_" ++ s.name ++ "_data"] ++
  (if s.hasReturn then ["dummyRes_" ++ s.name] else [])

/-- The innermost declaration in scope for an identifier used in the outermost block of the mock. -/
def resolveMock (s : FunSection) (x : String) : Denotes :=
  if x ∈ mockLocals s then .outerLocal
  else if x ∈ s.params.names then .parameter (s.params.names.idxOf x)
  else .global

end EasyMock.Gen
