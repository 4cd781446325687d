import Verif.CFile.Model
import Verif.MockCode.File
import Verif.StructCmp.Model

/-!
# CFile: the text of the generated source

Model of the template of the source, `src/easyMockGenerate/src/CTemplateGenerator/CodeGeneratorCTemplate.cpp` (GEN) 462-791, with the
fragments of GEN:213-455 and the dictionaries of GEN:1398-1674.  The body of a function is a list of lines; `linesText` gives
the text of the lines with their indentation, which the template writes out.

Simplifications.
* The text of the declaration of an anonymous type inside its comparator (GEN:511-513 and 2287-2291) is part of the comparator
  (`SrcCmp`); the blanks with which ctemplate indents its lines are not represented.
* The texts of the types in the data structure (`FUNCTION_PARAM_NON_QUALIFIED_TYPE`, `PARAMETER_RAW_TYPE`, ...) are part of the
  function (`SrcFun`).
-/

namespace EasyMock.CFile

open EasyMock.Gen

/-- A line of the body of a function or structure: a statement with the comment behind it (empty: none), the two lines which open
    a block, the line which ends one, a comment, an indented line without text, an empty line, an included text which ends a line. -/
inductive Line where
  | stmt (text : String) (comment : String)
  | enter (head : String)
  | leave
  | comment (text : String)
  | blanks
  | empty
  | decl (text : String)
  deriving DecidableEq, Repr

/-- Four blanks for each block. -/
def indent (n : Nat) : String := String.join (List.replicate n "    ")

/-- The text of lines, inside `n` blocks of the body. -/
def linesText : Nat → List Line → String
  | _, [] => ""
  | n, .stmt t k :: r =>
    (indent (n + 1) ++ t ++ (if k.isEmpty then ";\n" else "; // " ++ k ++ "\n")) ++ linesText n r
  | n, .enter h :: r => (indent (n + 1) ++ h ++ "\n" ++ indent (n + 1) ++ "{\n") ++ linesText (n + 1) r
  | n, .leave :: r => (indent n ++ "}\n") ++ linesText (n - 1) r
  | n, .comment k :: r => (indent (n + 1) ++ "// " ++ k ++ "\n") ++ linesText n r
  | n, .blanks :: r => (indent (n + 1) ++ "\n") ++ linesText n r
  | n, .empty :: r => "\n" ++ linesText n r
  | n, .decl t :: r => (indent (n + 1) ++ t ++ "\n") ++ linesText n r

/-- A statement without comment. -/
abbrev line (t : String) : Line := .stmt t ""

/-- The member for a parameter, `REGULAR_MEMBER_SECTION` with `FUNCTION_PARAM_NON_QUALIFIED_TYPE` or `REFERENCE_MEMBER_SECTION`
    with `PARAMETER_RAW_TYPE` and `FUNCTION_PARAM_DEREFERENCED_TYPE`, GEN:1595-1607.  For the result the sections
    `REGULAR_RETURN_SECTION` and `REFERENCE_RETURN_SECTION`, with `FUNCTION_NON_QUALIFIED_RETURN_VALUE` and
    `FUNCTION_DEREFERENCED_RETURN_VALUE`, GEN:1486 and 1503-1511. -/
inductive MemberType where
  | regular (type : String)
  | reference (raw deref : String)
  deriving DecidableEq, Repr

/-- `FUNCTION_NON_QUALIFIED_RETURN_VALUE` (`PARAMETER_RAW_TYPE` for a reference parameter). -/
def MemberType.raw : MemberType → String
  | .regular t => t
  | .reference r _ => r

/-- A function of the source: its dictionary with the types of the members of its data structure, one for each parameter, and of
    the result. -/
structure SrcFun extends Fun where
  members : List MemberType
  result : MemberType

/-- The parameters with their members. -/
def SrcFun.params (f : SrcFun) : List ((String × String × Gen.Out × XDecl) × MemberType) := f.sec.params.entries.zip f.members

/-- `FUNCTION_MOCK_DATA_TYPE`, GEN:414-415. -/
def srcDataType (s : FunSection) : String := dataPrefix s ++ "_data"

/-- The members of a reference, GEN:285-287: a default object and the reference. -/
def referenceLines (raw deref name comment : String) : List Line :=
  [line (raw ++ " default_" ++ name),
   .stmt ("std::reference_wrapper<" ++ deref ++ "> " ++ name ++ "{ default_" ++ name ++ " }") comment]

/-- The member for a parameter and its matcher, GEN:570-584. -/
def paramLines (c : Config) (s : FunSection) (p : (String × String × Gen.Out × XDecl) × MemberType) : List Line :=
  (match p.2 with
   | .reference raw deref => referenceLines raw deref p.1.2.1 "Reference member section"
   | .regular type => [.stmt (type ++ " " ++ p.1.2.1 ++ p.1.2.2.2.text) "Regular member section"]) ++
  [if c.cpp then line ("::EasyMock::EasyMock_Matcher_Cpp<" ++ p.1.1 ++ "> " ++ dataPrefix s ++ "_match_" ++ p.1.2.1)
   else line ("EasyMock_Matcher " ++ dataPrefix s ++ "_match_" ++ p.1.2.1)]

/-- The member for the result, GEN:585-589. -/
def resultLines (f : SrcFun) : List Line :=
  if f.sec.hasReturn then
    match f.result with
    | .reference raw deref => referenceLines raw deref (dataPrefix f.sec ++ "_returnValue") "Reference return section"
    | .regular type => [.stmt (type ++ " " ++ dataPrefix f.sec ++ "_returnValue" ++ f.sec.retExtra.text) "Regular return section"]
  else []

/-- The members of an output, GEN:590-595; the dictionary of an output has no `EXTRA_DECL_SECTION`, GEN:1655-1670. -/
def outLines (e : String × String × Gen.Out × XDecl) : List Line :=
  line (e.1 ++ " out_" ++ e.2.1) ::
  (if e.2.2.1 == .sized then [line ("easyMock_size_t out_" ++ e.2.1 ++ "_size")] else [])

/-- The members of the data structure, GEN:567-595. -/
def dataLines (c : Config) (f : SrcFun) : List Line :=
  (match f.sec.cls with
   | some k => [line ("::" ++ k ++ "* instance")]
   | none => []) ++
  (f.params.map (paramLines c f.sec)).flatten ++ resultLines f ++ (f.sec.outs.map outLines).flatten

/-- The data structure, GEN:565-597. -/
def dataText (c : Config) (f : SrcFun) : String :=
  (if c.cpp then "struct " ++ srcDataType f.sec ++ " {\n" else "typedef struct  {\n") ++
  linesText 0 (dataLines c f) ++
  (if c.cpp then "};\n" else "} " ++ srcDataType f.sec ++ ";\n") ++ "\n"

/-- The static objects of a function, GEN:598-607. -/
def objectsText (c : Config) (f : SrcFun) : String :=
  ("static void " ++ commonName f.sec ++ "(" ++ expectOutputParams c f.sec ++ ")" ++ ";\n") ++
  (if c.cpp then "static MockedCppFunction<" ++ srcDataType f.sec ++ "> mocked_" ++ f.sec.name ++ ";\n"
   else "static MockedFunction mocked_" ++ f.sec.name ++ ";\n") ++
  (if f.sec.hasReturn then
    (if c.cpp then "static " ++ f.result.raw ++ " dummyRes_" ++ f.sec.name ++ f.sec.retExtra.text ++ "{};\n"
     else "static " ++ f.result.raw ++ " dummyRes_" ++ f.sec.name ++ f.sec.retExtra.text ++ ";\n")
   else "") ++ "\n"

/-- The result in the return statements of the mock: `IF_RETURN_VALUE(" default_res")`. -/
def returnLine (s : FunSection) : Line := line (if s.hasReturn then "return default_res" else "return")

/-- The check of a parameter, GEN:646-676. -/
def checkLines (c : Config) (s : FunSection) (e : String × String × Gen.Out × XDecl) : List Line :=
  (if c.cpp then
    [.enter ("if(currentDataCall." ++ dataPrefix s ++ "_match_" ++ e.2.1 ++ ")"),
     line "std::ostringstream errorMessage{}",
     line ("auto& curCallVal = " ++ e.2.1),
     line ("auto& expectedCallVal = currentDataCall." ++ e.2.1),
     line ("auto& matcher = currentDataCall." ++ dataPrefix s ++ "_match_" ++ e.2.1),
     line ("bool error = matcher(curCallVal, expectedCallVal, \"" ++ e.2.1 ++ "\", errorMessage)"),
     .enter "if(error)",
     line ("easyMock_addError(printCallStack, \"Error : at call %d of '%s': %s\", MockedFunction_getNbActualCall(&mocked_" ++
       s.name ++ "), MockedFunction_getName(&mocked_" ++ s.name ++ "), errorMessage.str().c_str())"),
     .leave, .leave]
   else
    [.enter ("if(currentDataCall." ++ dataPrefix s ++ "_match_" ++ e.2.1 ++ " != easyMock_null)"),
     line "char errorMessage[EASYMOCK_MAX_CMP_ERR] = {0}",
     line ("void *curCallVal = (void *) &" ++ e.2.1),
     line ("void *expectedCallVal = (void *) &currentDataCall." ++ e.2.1),
     line ("EasyMock_Matcher matcher = currentDataCall." ++ dataPrefix s ++ "_match_" ++ e.2.1),
     line ("int error = matcher(curCallVal, expectedCallVal, \"" ++ e.2.1 ++ "\", errorMessage)"),
     .enter "if(error)",
     line ("easyMock_addError(printCallStack, \"Error : at call %d of '%s': %s\", MockedFunction_getNbActualCall(&mocked_" ++
       s.name ++ "), MockedFunction_getName(&mocked_" ++ s.name ++ "), errorMessage)"),
     .leave, .leave]) ++
  [.empty]

/-- The copy to an output, GEN:689-694. -/
def copyLines (e : String × String × Gen.Out × XDecl) : List Line :=
  [.enter ("if(currentDataCall.out_" ++ e.2.1 ++ ")"),
   (if e.2.2.1 == .sized then
     line ("easyMock_memcpy((void*)" ++ e.2.1 ++ ", (void*)currentDataCall.out_" ++ e.2.1 ++ ", currentDataCall.out_" ++ e.2.1 ++
       "_size)")
    else
     line ("easyMock_memcpy((void*)" ++ e.2.1 ++ ", (void*)currentDataCall.out_" ++ e.2.1 ++ ", sizeof(*" ++ e.2.1 ++ "))")),
   .leave]

/-- The default result, GEN:614-623. -/
def defaultLines (f : SrcFun) : List Line :=
  if f.sec.hasReturn then
    (match f.result with
     | .reference _ deref =>
       [line ("std::reference_wrapper<" ++ deref ++ "> default_res { dummyRes_" ++ f.sec.name ++ " }")]
     | .regular type =>
       [line (type ++ " default_res" ++ f.sec.topExtra.text),
        line ("easyMock_memcpy((void*)&default_res, (void*)&dummyRes_" ++ f.sec.name ++ ", sizeof(default_res))")]) ++
    [.empty]
  else []

/-- The beginning of the mock, GEN:611-636. -/
def mockFront (f : SrcFun) : List Line :=
  [line "easyMock_bool printCallStack = easyMock_printCallStack()",
   line "easyMock_bool checkCallsOrder = easyMock_checkCallsOrder()",
   .empty] ++
  defaultLines f ++
  [.enter ("if(!MockedFunction_addActualCall(&mocked_" ++ f.sec.name ++ "))"),
   (if f.sec.hasReturn then
     line ("easyMock_addError(printCallStack, \"Error : unexpected call of '%s'. " ++ f.sec.name ++
       " is returning a random value.\", MockedFunction_getName(&mocked_" ++ f.sec.name ++ "))")
    else
     line ("easyMock_addError(printCallStack, \"Error : unexpected call of '%s'.\", MockedFunction_getName(&mocked_" ++
       f.sec.name ++ "))")),
   returnLine f.sec,
   .leave, .empty,
   line (srcDataType f.sec ++ " currentDataCall"),
   .enter ("if (!MockedFunction_getCurrentCallParam(&mocked_" ++ f.sec.name ++ ", &currentDataCall))"),
   line "easyMock_addError(printCallStack, \"BUG IN EASYMOCK: CONTACT THE DEVELOPER TO FIX THIS\")",
   returnLine f.sec,
   .leave, .empty]

/-- The check of the object, GEN:637-645. -/
def instanceLines (s : FunSection) : List Line :=
  (if s.cls.isSome then
    [.enter "if(currentDataCall.instance && currentDataCall.instance != this)",
     line "std::ostringstream errorMessage{}",
     line ("errorMessage << \"Expecting this object being \" << currentDataCall.instance << \", got this = \" << this << " ++
       "std::endl"),
     line ("easyMock_addError(printCallStack, \"Error : at call %d of '%s': %s\", MockedFunction_getNbActualCall(&mocked_" ++
       s.name ++ "), MockedFunction_getName(&mocked_" ++ s.name ++ "), errorMessage.str().c_str())"),
     .leave]
   else []) ++
  [.empty]

/-- The end of the mock, GEN:677-695. -/
def mockBack (s : FunSection) : List Line :=
  (if s.hasReturn then [line ("default_res = currentDataCall." ++ dataPrefix s ++ "_returnValue")] else []) ++
  [.empty,
   line "CSTRING_AUTOCLEAN(currentCall) = easyMock_popCurrentCall()",
   .enter "if(checkCallsOrder)",
   line ("const char* curFuncCall = MockedFunction_getName(&mocked_" ++ s.name ++ ")"),
   .enter "if(cstring_compare_const_char(&currentCall, curFuncCall) != 0)",
   line ("easyMock_addError(printCallStack, \"Error : got call to '%s',  but was expecting call to '%s'\", " ++
     "MockedFunction_getName(&mocked_" ++ s.name ++ "), cstring_c_str(&currentCall))"),
   returnLine s,
   .leave, .leave] ++
  (s.outs.map copyLines).flatten ++
  (if s.hasReturn then [.empty, line "return default_res"] else [])

/-- The body of the mock, GEN:611-695. -/
def mockLines (c : Config) (f : SrcFun) : List Line :=
  mockFront f ++ instanceLines f.sec ++ (f.sec.params.entries.map (checkLines c f.sec)).flatten ++ mockBack f.sec

/-- A definition of a function. -/
def definition (sig : String) (body : List Line) : String := sig ++ "\n{\n" ++ linesText 0 body ++ "}\n"

/-- The mock, GEN:608-699. -/
def mockText (c : Config) (f : SrcFun) : String :=
  (if c.cpp then namespaceBegin f.sec.ns ++ "\n" else "") ++
  (definition (mockSignature f.sec) (mockLines c f) ++ "\n") ++
  (if c.cpp then namespaceEnd f.sec.ns ++ "\n" else "")

/-- The Expect functions, GEN:700-718. -/
def expectText (c : Config) (s : FunSection) : String :=
  (expectBegin c s ++ "\n") ++
  (definition ("void " ++ expectName c s ++ "(" ++ expectParams c s ++ ")") [line (commonName s ++ "(" ++ expectCall s ++ ")")] ++
    "\n") ++
  (if s.outs.isEmpty then ""
   else definition ("void " ++ expectOutputName c s ++ "(" ++ expectOutputParams c s ++ ")")
    [line (commonName s ++ "(" ++ expectOutputCall s ++ ")")]) ++
  "\n" ++
  (expectEnd c s ++ "\n")

/-- The value of a parameter and its matcher in the common function, GEN:726-732. -/
def storeLines (s : FunSection) (p : (String × String × Gen.Out × XDecl) × MemberType) : List Line :=
  [(match p.2 with
    | .regular _ => .stmt ("easyMock_memcpy((void*)&mockedData." ++ p.1.2.1 ++ ", (void*)&" ++ p.1.2.1 ++ ", sizeof(mockedData." ++
        p.1.2.1 ++ "))") "normal member section"
    | .reference _ _ => .stmt ("mockedData." ++ p.1.2.1 ++ " = " ++ p.1.2.1) "Reference member section"),
   line ("mockedData." ++ dataPrefix s ++ "_match_" ++ p.1.2.1 ++ " = easyMock_match_" ++ p.1.2.1),
   .empty]

/-- An output in the common function, GEN:734-743. -/
def storeOutLines (e : String × String × Gen.Out × XDecl) : List Line :=
  (if e.2.2.1 == .sized then [line ("mockedData.out_" ++ e.2.1 ++ "_size = out_" ++ e.2.1 ++ "_size")] else []) ++
  [line ("easyMock_memcpy((void*)&mockedData.out_" ++ e.2.1 ++ ", (void*)&out_" ++ e.2.1 ++ ", sizeof(mockedData.out_" ++ e.2.1 ++
     "))"),
   .empty]

/-- The body of the common function, GEN:721-747. -/
def commonLines (f : SrcFun) : List Line :=
  [line (srcDataType f.sec ++ " mockedData"), .empty] ++
  (if f.sec.cls.isSome then [line "mockedData.instance = instance"] else []) ++
  (f.params.map (storeLines f.sec)).flatten ++ (f.sec.outs.map storeOutLines).flatten ++
  (if f.sec.hasReturn then [line ("mockedData." ++ dataPrefix f.sec ++ "_returnValue = to_return"), .empty] else []) ++
  [line ("MockedFunction_addExpectedCall(&mocked_" ++ f.sec.name ++ ", &mockedData)"),
   line ("easyMock_addCall(MockedFunction_getName(&mocked_" ++ f.sec.name ++ "))")]

/-- A function in the source, GEN:564-752. -/
def sourceFun (c : Config) (f : SrcFun) : String :=
  (generateComment f.toFun ++ "\n") ++ dataText c f ++ objectsText c f ++ mockText c f ++ expectText c f.sec ++
  (definition ("static void " ++ commonName f.sec ++ "(" ++ expectOutputParams c f.sec ++ ")") (commonLines f) ++ "\n") ++
  (endGenerateComment f.toFun ++ "\n" ++ "\n")

/-- A comparator: its checks, `COMPOSED_TYPED_DECL_STRING`, GEN:2306-2322, and the declaration of its type, which ends a line, if the
    comparator makes one, GEN:2287-2291. -/
structure SrcCmp where
  cmp : StructCmp.Comparator
  type : String
  inner : String := ""

/-- A member of the object which a comparator looks at, GEN:1746-1756 and 1893-1904. -/
def fieldText (k : StructCmp.Check) (ptr : String) : String := ptr ++ "->" ++ k.field ++ (if k.array then "[idx]" else "")

/-- `COMPARE_CONDITION`, GEN:1816-1838 and 1892-1904. -/
def conditionText (k : StructCmp.Check) : String :=
  match k.action with
  | .neq _ _ _ => fieldText k "currentCall_val" ++ " != " ++ fieldText k "expectedCall_val"
  | .call name => "cmp_" ++ name ++ "(&" ++ fieldText k "currentCall_val" ++ ", &" ++ fieldText k "expectedCall_val" ++
      ", cstring_c_str(&" ++ k.field ++ "_parameter), errorMessage)"

/-- `STRUCT_COMPARE_PRE_IF_SECTION`, GEN:521-524 and 1800-1815. -/
def preIfLines (k : StructCmp.Check) : List Line :=
  match k.action with
  | .neq _ _ _ => []
  | .call _ =>
    [line ("CSTRING_AUTOCLEAN(" ++ k.field ++ "_parameter) = cstring_new_init(paramName)"),
     line ("cstring_append(&" ++ k.field ++ "_parameter, \"" ++ "." ++ k.field ++ "\")")]

/-- The cast of a value in a message, GEN:528 with 1937-1941. -/
def castText : Option String → String
  | some t => "(" ++ t ++ ")"
  | none => ""

/-- The message of a difference, GEN:527-529 and 543-545, with GEN:273-277: in a loop the name of the field carries `[idx]`, the
    values are not cast. -/
def messageLines (article : String) (k : StructCmp.Check) : List Line :=
  match k.action with
  | .call _ => []
  | .neq owner format cast =>
    if k.array then
      [line ("easyMock_snprintf(errorMessage, 256 , \"Parameter '%s' which is a" ++ article ++ " of type '" ++ owner ++
        "' has field array '" ++ k.field ++ "[idx]' at idx == %d with value '%" ++ format.getD "" ++ "', was expecting '%" ++
        format.getD "" ++ "'\", paramName, idx,  currentCall_val->" ++ k.field ++ "[idx], expectedCall_val->" ++ k.field ++ "[idx])")]
    else
      [line ("easyMock_snprintf(errorMessage, 256 , \"Parameter '%s' which is a" ++ article ++ " of type '" ++ owner ++
        "' has field '" ++ k.field ++ "' with value '%" ++ format.getD "" ++ "', was expecting '%" ++ format.getD "" ++
        "'\", paramName, " ++ castText cast ++ "currentCall_val->" ++ k.field ++ ", " ++
        castText cast ++ "expectedCall_val->" ++ k.field ++ ")")]

/-- The check of a field, GEN:520-532, or of the elements of an array, GEN:534-549. -/
def fieldLines (article : String) (k : StructCmp.Check) : List Line :=
  (if k.array then
    [Line.enter ("for(unsigned int idx = 0; idx < (sizeof(currentCall_val->" ++ k.field ++ ")/sizeof(currentCall_val->" ++ k.field ++
      "[0])); idx++)")] else []) ++
  preIfLines k ++ [.enter ("if(" ++ conditionText k ++ ")")] ++ messageLines article k ++ [line "return -1", .leave] ++
  (if k.array then [.leave] else [])

/-- The body of a comparator, GEN:507-551: the sections of the arrays follow those of the other fields. -/
def cmpLines (k : SrcCmp) : List Line :=
  [line "(void)currentCall_ptr", line "(void)expectedCall_ptr", line "(void)paramName", line "(void)errorMessage",
   .comment "Start COMPOSABLE_TYPE_DECLARE_COMPOSABLE_TYPE_SECTION",
   if k.inner = "" then .blanks else .decl k.inner,
   .comment "End COMPOSABLE_TYPE_DECLARE_COMPOSABLE_TYPE_SECTION",
   line (k.type ++ " *currentCall_val = (" ++ k.type ++ " *)currentCall_ptr"), line "(void)currentCall_val",
   line (k.type ++ " *expectedCall_val = (" ++ k.type ++ " *)expectedCall_ptr"), line "(void)expectedCall_val"] ++
  ((k.cmp.checks.filter (fun x => !x.array)).map (fieldLines k.cmp.article)).flatten ++
  ((k.cmp.checks.filter (fun x => x.array)).map (fieldLines k.cmp.article)).flatten ++
  [line "return 0"]

/-- The body of the comparator of pointers, GEN:556-558. -/
def cmpDerefLines (k : SrcCmp) : List Line :=
  [line (k.type ++ " **currentCall_val = (" ++ k.type ++ " **)currentCall_ptr"),
   line (k.type ++ " **expectedCall_val = (" ++ k.type ++ " **)expectedCall_ptr"),
   line ("return cmp_" ++ k.cmp.name ++ "((const void*)*currentCall_val, (const void*)*expectedCall_val, paramName, errorMessage)")]

/-- The definitions of a comparator, GEN:503-561. -/
def sourceCmp (k : SrcCmp) : String :=
  (definition (cmpSignature k.cmp.name) (cmpLines k) ++ "\n") ++ (definition (cmpDerefSignature k.cmp.name) (cmpDerefLines k) ++ "\n")

/-- The body of the function which resets the mocks of the file, GEN:756-758. -/
def resetLines (fs : List SrcFun) : List Line :=
  fs.map (fun f => line ("MockedFunction_reset(&mocked_" ++ f.sec.name ++ ")"))

/-- The body of the function which initialises the mocks of the file, GEN:762-764. -/
def initLines (fs : List SrcFun) : List Line :=
  fs.map (fun f => line ("MockedFunction_init(&mocked_" ++ f.sec.name ++ ", \"" ++ mockSignature f.sec ++ "\", sizeof(" ++
    srcDataType f.sec ++ ") )"))

/-- The body of the function which verifies the mocks of the file, GEN:769-776. -/
def verifyLines (fs : List SrcFun) : List Line :=
  [line "easyMock_bool rv = easyMock_true"] ++
  (fs.map (fun f => [Line.enter ("if(!MockedFunction_verify(&mocked_" ++ f.sec.name ++ "))"), line "rv = easyMock_false", .leave])
    ).flatten ++
  [line "return rv"]

/-- The functions of the file and their registration, GEN:753-791. -/
def sourceBack (path : String) (fs : List SrcFun) : String :=
  "\n" ++
  definition "static void easyMock_resetAllMocksInThisHeader()" (resetLines fs) ++
  definition "static void easyMock_initAllMocksInThisHeader()" (initLines fs) ++
  (definition "static easyMock_bool easyMock_verifyAllMocksInThisHeader()" (verifyLines fs) ++ "\n") ++
  ("static easyMock_mockedFileRegister_t mockedRegister = {\"" ++ fileName path ++
    "\", &easyMock_resetAllMocksInThisHeader, &easyMock_verifyAllMocksInThisHeader };\n" ++ "\n") ++
  (definition "static void __attribute__((constructor(102))) easyMock_register_this_header()"
    [line "easyMock_initAllMocksInThisHeader()", line "easyMock_registerMockedFile(&mockedRegister)"] ++ "\n") ++
  definition "static void __attribute__((destructor)) easyMock_unregister_this_header()"
    [line "easyMock_resetAllMocksInThisHeader()", line "easyMock_unregisterMockedFile(&mockedRegister)"]

/-- The includes and prototypes at the beginning of the source, GEN:486-501. -/
def sourceFront (c : Config) (path : String) : String :=
  "#include <easyMock_framework.h>\n" ++ "#include <easyMock_glueStdlib.h>\n" ++ "#include <MockedFunction.h>\n" ++
  "#include <cstring.h>\n" ++
  (if c.cpp then "#include <sstream>\n" ++ "#include <tuple>\n" else "") ++
  "\n" ++
  ("#include \"" ++ includedHeader path ++ "\"\n") ++
  "\n" ++
  ("static void easyMock_initAllMocksInThisHeader()" ++ ";\n") ++
  ("static void easyMock_resetAllMocksInThisHeader()" ++ ";\n") ++
  ("static easyMock_bool easyMock_verifyAllMocksInThisHeader()" ++ ";\n") ++
  "\n"

/-- The text of the generated source, GEN:462-791. -/
def sourceText (c : Config) (path : String) (cmps : List SrcCmp) (fs : List SrcFun) : String :=
  licence ++ sourceFront c path ++ String.join (cmps.map sourceCmp) ++ String.join (fs.map (sourceFun c)) ++ sourceBack path fs

end EasyMock.CFile
