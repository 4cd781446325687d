import Verif.CFile.Code
import Verif.CFile.SourceModel

/-!
# CFile: the statements of the generated source

What the abstract syntax which `Verif.MockCode` and `Verif.StructCmp` interpret stands for: each of their statements as the items
(statements and blocks) which a compiler finds in the file.
-/

namespace EasyMock.CFile

open EasyMock.Gen

/-- A statement. -/
def says (t : String) : Item := .stmt t.toList

/-- A block behind a head. -/
def blk (head : String) (inside : List Item) : List Item := .enter head.toList :: inside ++ [.leave]

/-! ## The mock -/

/-- Leaving the mock early: the default result is what was stored so far. -/
def leaves (s : FunSection) : Item := says (if s.hasReturn then "return default_res" else "return")

/-- The error for a difference at the current call, with the expression for its message. -/
def differs (s : FunSection) (message : String) : Item :=
  says ("easyMock_addError(printCallStack, \"Error : at call %d of '%s': %s\", MockedFunction_getNbActualCall(&mocked_" ++ s.name ++
    "), MockedFunction_getName(&mocked_" ++ s.name ++ "), " ++ message ++ ")")

/-- The items for a statement of the mock. -/
def stmtItems (c : Config) (s : FunSection) : MockCode.Stmt → List Item
  | .addActualCall =>
    blk ("if(!MockedFunction_addActualCall(&mocked_" ++ s.name ++ "))")
      [says ("easyMock_addError(printCallStack, \"Error : unexpected call of '%s'." ++
         (if s.hasReturn then " " ++ s.name ++ " is returning a random value." else "") ++
         "\", MockedFunction_getName(&mocked_" ++ s.name ++ "))"),
       leaves s]
  | .getCurrentCallParam =>
    [says (MockCode.dataType s ++ " currentDataCall")] ++
    blk ("if (!MockedFunction_getCurrentCallParam(&mocked_" ++ s.name ++ ", &currentDataCall))")
      [says "easyMock_addError(printCallStack, \"BUG IN EASYMOCK: CONTACT THE DEVELOPER TO FIX THIS\")", leaves s]
  | .checkInstance m =>
    blk ("if(currentDataCall." ++ m ++ " && currentDataCall." ++ m ++ " != this)")
      [says "std::ostringstream errorMessage{}",
       says ("errorMessage << \"Expecting this object being \" << currentDataCall." ++ m ++
         " << \", got this = \" << this << std::endl"),
       differs s "errorMessage.str().c_str()"]
  | .check matcher current expected literal =>
    if c.cpp then
      blk ("if(currentDataCall." ++ matcher ++ ")")
        ([says "std::ostringstream errorMessage{}",
          says ("auto& curCallVal = " ++ current),
          says ("auto& expectedCallVal = currentDataCall." ++ expected),
          says ("auto& matcher = currentDataCall." ++ matcher),
          says ("bool error = matcher(curCallVal, expectedCallVal, \"" ++ literal ++ "\", errorMessage)")] ++
         blk "if(error)" [differs s "errorMessage.str().c_str()"])
    else
      blk ("if(currentDataCall." ++ matcher ++ " != easyMock_null)")
        ([says "char errorMessage[EASYMOCK_MAX_CMP_ERR] = {0}",
          says ("void *curCallVal = (void *) &" ++ current),
          says ("void *expectedCallVal = (void *) &currentDataCall." ++ expected),
          says ("EasyMock_Matcher matcher = currentDataCall." ++ matcher),
          says ("int error = matcher(curCallVal, expectedCallVal, \"" ++ literal ++ "\", errorMessage)")] ++
         blk "if(error)" [differs s "errorMessage"])
  | .setResult m => [says ("default_res = currentDataCall." ++ m)]
  | .checkOrder =>
    [says "CSTRING_AUTOCLEAN(currentCall) = easyMock_popCurrentCall()"] ++
    blk "if(checkCallsOrder)"
      ([says ("const char* curFuncCall = MockedFunction_getName(&mocked_" ++ s.name ++ ")")] ++
       blk "if(cstring_compare_const_char(&currentCall, curFuncCall) != 0)"
         [says ("easyMock_addError(printCallStack, \"Error : got call to '%s',  but was expecting call to '%s'\", " ++
            "MockedFunction_getName(&mocked_" ++ s.name ++ "), cstring_c_str(&currentCall))"),
          leaves s])
  | .copyOut out dest size =>
    blk ("if(currentDataCall." ++ out ++ ")")
      [says ("easyMock_memcpy((void*)" ++ dest ++ ", (void*)currentDataCall." ++ out ++ ", " ++
        (match size with
         | .inl m => "currentDataCall." ++ m
         | .inr _ => "sizeof(*" ++ dest ++ ")") ++ ")")]
  | .ret => if s.hasReturn then [says "return default_res"] else []

/-- The variables of the mock in front of its statements: the options, and the default result with its initial value. -/
def preludeItems (f : SrcFun) : List Item :=
  [says "easyMock_bool printCallStack = easyMock_printCallStack()", says "easyMock_bool checkCallsOrder = easyMock_checkCallsOrder()"] ++
  (if f.sec.hasReturn then
    match f.result with
    | .reference _ deref => [says ("std::reference_wrapper<" ++ deref ++ "> default_res { dummyRes_" ++ f.sec.name ++ " }")]
    | .regular type =>
      [says (type ++ " default_res" ++ f.sec.topExtra.text),
       says ("easyMock_memcpy((void*)&default_res, (void*)&dummyRes_" ++ f.sec.name ++ ", sizeof(default_res))")]
   else [])

/-- The body of the mock. -/
def mockItems (c : Config) (f : SrcFun) : List Item :=
  preludeItems f ++ ((MockCode.mockBody f.sec).map (stmtItems c f.sec)).flatten

/-! ## The data structure and the Expect functions -/

/-- The declaration of a member or variable: a type, a name, and what stands behind the name. -/
def declares (type name behind : String) : Item := says (type ++ " " ++ name ++ behind)

/-- A member of a type: a reference has a default object and a wrapper which refers to it. -/
def memberItems (type : MemberType) (name behind : String) : List Item :=
  match type with
  | .regular t => [declares t name behind]
  | .reference raw deref =>
    [declares raw ("default_" ++ name) "", declares ("std::reference_wrapper<" ++ deref ++ ">") name ("{ default_" ++ name ++ " }")]

/-- The members of the data structure. -/
def dataItems (c : Config) (f : SrcFun) : List Item :=
  (f.sec.cls.toList.map (fun k => declares ("::" ++ k ++ "*") "instance" "")) ++
  ((f.sec.params.entries.zip f.members).map (fun p =>
    memberItems p.2 p.1.2.1 p.1.2.2.2.text ++
    [declares (if c.cpp then "::EasyMock::EasyMock_Matcher_Cpp<" ++ p.1.1 ++ ">" else "EasyMock_Matcher")
      (MockCode.matchMember f.sec p.1.2.1) ""])).flatten ++
  (if f.sec.hasReturn then memberItems f.result (MockCode.retMember f.sec) f.sec.retExtra.text else []) ++
  (f.sec.outs.map (fun e => declares e.1 ("out_" ++ e.2.1) "" ::
    (if e.2.2.1 == .sized then [declares "easyMock_size_t" ("out_" ++ e.2.1 ++ "_size") ""] else []))).flatten

/-- Copying a variable to a member, byte by byte. -/
def copies (member var : String) : Item :=
  says ("easyMock_memcpy((void*)&mockedData." ++ member ++ ", (void*)&" ++ var ++ ", sizeof(mockedData." ++ member ++ "))")

/-- Assigning a variable to a member. -/
def assigns (member var : String) : Item := says ("mockedData." ++ member ++ " = " ++ var)

/-- An item which gives a member the value of a variable. -/
def Stores (i : Item) (a : MockCode.Assign) : Prop := i = copies a.member a.var ∨ i = assigns a.member a.var

/-- The function which all Expect functions call: which members it copies and which it assigns. -/
def commonItems (f : SrcFun) : List Item :=
  [says (MockCode.dataType f.sec ++ " mockedData")] ++
  (if f.sec.cls.isSome then [assigns "instance" "instance"] else []) ++
  ((f.sec.params.entries.zip f.members).map (fun p =>
    [match p.2 with
     | .regular _ => copies p.1.2.1 p.1.2.1
     | .reference _ _ => assigns p.1.2.1 p.1.2.1,
     assigns (MockCode.matchMember f.sec p.1.2.1) ("easyMock_match_" ++ p.1.2.1)])).flatten ++
  (f.sec.outs.map (fun e =>
    (if e.2.2.1 == .sized then [assigns ("out_" ++ e.2.1 ++ "_size") ("out_" ++ e.2.1 ++ "_size")] else []) ++
    [copies ("out_" ++ e.2.1) ("out_" ++ e.2.1)])).flatten ++
  (if f.sec.hasReturn then [assigns (MockCode.retMember f.sec) "to_return"] else []) ++
  [says ("MockedFunction_addExpectedCall(&mocked_" ++ f.sec.name ++ ", &mockedData)"),
   says ("easyMock_addCall(MockedFunction_getName(&mocked_" ++ f.sec.name ++ "))")]

/-- A call of the common function. -/
def commonCall (s : FunSection) (args : List MockCode.Arg) : Item :=
  says (commonName s ++ "(" ++ ", ".intercalate (args.map MockCode.Arg.text) ++ ")")

/-! ## The functions of the file -/

/-- The items for a statement of the functions of the file. -/
def fileItems : MockCode.FStmt → List Item
  | .reset obj => [says ("MockedFunction_reset(&" ++ obj ++ ")")]
  | .init obj literal type => [says ("MockedFunction_init(&" ++ obj ++ ", \"" ++ literal ++ "\", sizeof(" ++ type ++ ") )")]
  | .verify obj => blk ("if(!MockedFunction_verify(&" ++ obj ++ "))") [says "rv = easyMock_false"]

/-- The item for a statement of the functions which run when the file enters and leaves the process. -/
def processItem : MockCode.CStmt → Item
  | .initAll => says "easyMock_initAllMocksInThisHeader()"
  | .resetAll => says "easyMock_resetAllMocksInThisHeader()"
  | .register => says "easyMock_registerMockedFile(&mockedRegister)"
  | .unregister => says "easyMock_unregisterMockedFile(&mockedRegister)"

/-- The functions of the file as `Verif.MockCode` has them; sizes do not matter for the texts. -/
def genFile (fs : List SrcFun) : MockCode.GenFile := fs.map (fun f => ⟨f.sec, 0, []⟩)

/-! ## Comparators -/

/-- The field, or the element of it which the loop looks at, of one of the two objects. -/
def fieldOf (k : StructCmp.Check) (object : String) : String := object ++ "->" ++ k.field ++ (if k.array then "[idx]" else "")

/-- The items for the action of a check: the condition, the message of a difference, the result -1. -/
def actionItems (article : String) (k : StructCmp.Check) : StructCmp.Action → List Item
  | .neq owner format cast =>
    let cast := if k.array then "" else cast.elim "" (fun t => "(" ++ t ++ ")")
    let message := "\"Parameter '%s' which is a" ++ article ++ " of type '" ++ owner ++ "' has field " ++
      (if k.array then "array " else "") ++ "'" ++ k.field ++ (if k.array then "[idx]' at idx == %d" else "'") ++
      " with value '%" ++ format.getD "" ++ "', was expecting '%" ++ format.getD "" ++ "'\""
    blk ("if(" ++ fieldOf k "currentCall_val" ++ " != " ++ fieldOf k "expectedCall_val" ++ ")")
      [says ("easyMock_snprintf(errorMessage, 256 , " ++ message ++ ", paramName, " ++ (if k.array then "idx,  " else "") ++
         cast ++ fieldOf k "currentCall_val" ++ ", " ++ cast ++ fieldOf k "expectedCall_val" ++ ")"),
       says "return -1"]
  | .call name =>
    [says ("CSTRING_AUTOCLEAN(" ++ k.field ++ "_parameter) = cstring_new_init(paramName)"),
     says ("cstring_append(&" ++ k.field ++ "_parameter, \"." ++ k.field ++ "\")")] ++
    blk ("if(cmp_" ++ name ++ "(&" ++ fieldOf k "currentCall_val" ++ ", &" ++ fieldOf k "expectedCall_val" ++ ", cstring_c_str(&" ++
      k.field ++ "_parameter), errorMessage))") [says "return -1"]

/-- The items for a check: a loop over the elements of an array. -/
def checkItems (article : String) (k : StructCmp.Check) : List Item :=
  if k.array then
    blk ("for(unsigned int idx = 0; idx < (sizeof(currentCall_val->" ++ k.field ++ ")/sizeof(currentCall_val->" ++ k.field ++
      "[0])); idx++)") (actionItems article k k.action)
  else actionItems article k k.action

/-- The declaration of the type of a comparator inside the comparator, without the semicolon and the end of the line behind it. -/
def innerItems (k : SrcCmp) : List Item := if k.inner = "" then [] else [.stmt k.inner.toList.dropLast.dropLast]

/-- The body of a comparator: the checks in the order in which `StructCmp.run` evaluates them. -/
def cmpItems (k : SrcCmp) : List Item :=
  [says "(void)currentCall_ptr", says "(void)expectedCall_ptr", says "(void)paramName", says "(void)errorMessage"] ++ innerItems k ++
  [says (k.type ++ " *currentCall_val = (" ++ k.type ++ " *)currentCall_ptr"), says "(void)currentCall_val",
   says (k.type ++ " *expectedCall_val = (" ++ k.type ++ " *)expectedCall_ptr"), says "(void)expectedCall_val"] ++
  ((k.cmp.checks.filter (fun x => !x.array) ++ k.cmp.checks.filter (fun x => x.array)).map (checkItems k.cmp.article)).flatten ++
  [says "return 0"]

/-- The body of the comparator of pointers: the comparator on what the pointers point to. -/
def cmpDerefItems (k : SrcCmp) : List Item :=
  [says (k.type ++ " **currentCall_val = (" ++ k.type ++ " **)currentCall_ptr"),
   says (k.type ++ " **expectedCall_val = (" ++ k.type ++ " **)expectedCall_ptr"),
   says ("return cmp_" ++ k.cmp.name ++ "((const void*)*currentCall_val, (const void*)*expectedCall_val, paramName, errorMessage)")]

/-! ## The declarations of the file -/

/-- A definition of a function. -/
def defines (scopes : List String) (sig : String) (inside : List Item) : Entry :=
  ⟨scopes.map (fun n => .space n.toList), sig.toList, some (some inside)⟩

/-- A declaration without a body. -/
def names (text : String) : Entry := ⟨[], text.toList, none⟩

/-- The parameters which the two functions of a comparator have. -/
def cmpParams : String :=
  "(const void *currentCall_ptr, const void *expectedCall_ptr, const char *paramName, char *errorMessage )"

/-- The functions of a comparator. -/
def cmpEntries (k : SrcCmp) : List Entry :=
  [defines [] ("int cmp_" ++ k.cmp.name ++ cmpParams) (cmpItems k),
   defines [] ("int cmp_deref_ptr_" ++ k.cmp.name ++ cmpParams) (cmpDerefItems k)]

/-- The data structure of a function: the type which the mock and the Expect functions use. -/
def dataEntry (c : Config) (f : SrcFun) : Entry :=
  ⟨[], (if c.cpp then "struct " ++ MockCode.dataType f.sec ++ " {}" else "typedef struct  {} " ++ MockCode.dataType f.sec).toList,
    some (some (dataItems c f))⟩

/-- The static objects of a function. -/
def objectEntries (c : Config) (f : SrcFun) : List Entry :=
  [names ("static void " ++ commonName f.sec ++ "(" ++ expectOutputParams c f.sec ++ ")"),
   names ((if c.cpp then "static MockedCppFunction<" ++ MockCode.dataType f.sec ++ "> " else "static MockedFunction ") ++
     MockCode.mockedName f.sec)] ++
  (if f.sec.hasReturn then
    [names ("static " ++ f.result.raw ++ " dummyRes_" ++ f.sec.name ++ f.sec.retExtra.text ++ (if c.cpp then "{}" else ""))]
   else [])

/-- The functions which tests and the code under test call: the mock in its namespaces, the Expect functions in C++ in
    the namespaces `EasyMock`, those of the function, its class and its name. -/
def publicEntries (c : Config) (f : SrcFun) : List Entry :=
  let scopes := if c.cpp then "EasyMock" :: (f.sec.ns ++ f.sec.cls.toList ++ [f.sec.name]) else []
  let front := if c.cpp then "" else f.sec.name ++ "_"
  [defines (if c.cpp then f.sec.ns else []) (mockSignature f.sec) (mockItems c f),
   defines scopes ("void " ++ front ++ "ExpectAndReturn(" ++ expectParams c f.sec ++ ")")
     [says (commonName f.sec ++ "(" ++ expectCall f.sec ++ ")")]] ++
  (if f.sec.outs = [] then []
   else [defines scopes ("void " ++ front ++ "ExpectReturnAndOutput(" ++ expectOutputParams c f.sec ++ ")")
     [says (commonName f.sec ++ "(" ++ expectOutputCall f.sec ++ ")")]])

/-- Everything which the file has for a function. -/
def funEntries (c : Config) (f : SrcFun) : List Entry :=
  dataEntry c f :: objectEntries c f ++ publicEntries c f ++
  [defines [] ("static void " ++ commonName f.sec ++ "(" ++ expectOutputParams c f.sec ++ ")") (commonItems f)]

/-- The prototypes at the beginning of the file. -/
def frontEntries : List Entry :=
  [names "static void easyMock_initAllMocksInThisHeader()", names "static void easyMock_resetAllMocksInThisHeader()",
   names "static easyMock_bool easyMock_verifyAllMocksInThisHeader()"]

/-- The functions of the file and what runs when it enters and leaves the process. -/
def backEntries (path : String) (fs : List SrcFun) : List Entry :=
  [defines [] "static void easyMock_resetAllMocksInThisHeader()" ((MockCode.resetAll (genFile fs)).map fileItems).flatten,
   defines [] "static void easyMock_initAllMocksInThisHeader()" ((MockCode.initAll (genFile fs)).map fileItems).flatten,
   defines [] "static easyMock_bool easyMock_verifyAllMocksInThisHeader()"
     ([says "easyMock_bool rv = easyMock_true"] ++ ((MockCode.verifyAll (genFile fs)).map fileItems).flatten ++ [says "return rv"]),
   names ("static easyMock_mockedFileRegister_t mockedRegister = {\"" ++ fileName path ++
     "\", &easyMock_resetAllMocksInThisHeader, &easyMock_verifyAllMocksInThisHeader }"),
   defines [] "static void __attribute__((constructor(102))) easyMock_register_this_header()"
     (MockCode.constructorBody.map processItem),
   defines [] "static void __attribute__((destructor)) easyMock_unregister_this_header()" (MockCode.destructorBody.map processItem)]

end EasyMock.CFile
