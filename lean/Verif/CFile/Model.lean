import Verif.Gen.Model

/-!
# CFile: the text of the generated header

Model of the template of the header, `src/easyMockGenerate/src/CTemplateGenerator/CodeGeneratorCTemplate.cpp` (GEN) 796-919, of
the fragments around a function (213-229, 450-455) and of the templates of namespaces (954-961), with the dictionaries that
GEN:1201-1255 and 1398-1454 make.  The parts of the header which depend on a function are those of `Verif.Gen.Model`.

Simplification: the text of the types which the header repeats when it does not include the mocked header (GEN:834-889, described
by `Verif.Emit.Model`) is a parameter.
-/

namespace EasyMock.CFile

open EasyMock.Gen

/-- The lines of the licence and of the remark at the top of a generated file, GEN:797-819 (and 457-483). -/
def licenceLines : List String :=
  [ "// MIT License\n",
    "\n",
    "// Copyright (c) 2021 Laurent Carlier\n",
    "\n",
    "// Permission is hereby granted, free of charge, to any person obtaining a copy\n",
    "// of this software and associated documentation files (the \"Software\"), to deal\n",
    "// in the Software without restriction, including without limitation the rights\n",
    "// to use, copy, modify, merge, publish, distribute, sublicense, and/or sell\n",
    "// copies of the Software, and to permit persons to whom the Software is\n",
    "// furnished to do so, subject to the following conditions:\n",
    "\n",
    "// The above copyright notice and this permission notice shall be included in all\n",
    "// copies or substantial portions of the Software.\n",
    "\n",
    "// THE SOFTWARE IS PROVIDED \"AS IS\", WITHOUT WARRANTY OF ANY KIND, EXPRESS OR\n",
    "// IMPLIED, INCLUDING BUT NOT LIMITED TO THE WARRANTIES OF MERCHANTABILITY,\n",
    "// FITNESS FOR A PARTICULAR PURPOSE AND NONINFRINGEMENT. IN NO EVENT SHALL THE\n",
    "// AUTHORS OR COPYRIGHT HOLDERS BE LIABLE FOR ANY CLAIM, DAMAGES OR OTHER\n",
    "// LIABILITY, WHETHER IN AN ACTION OF CONTRACT, TORT OR OTHERWISE, ARISING FROM,\n",
    "// OUT OF OR IN CONNECTION WITH THE SOFTWARE OR THE USE OR OTHER DEALINGS IN THE\n",
    "// SOFTWARE.\n",
    "\n",
    "// THIS FILE IS AUTOGENERATED BY EASYMOCKGENERATE! PLEASE DO NOT EDIT\n" ]

/-- The licence and the remark at the top of a generated file. -/
def licence : String := String.join licenceLines

/-- The include dictionaries of `fillNamespace` with `namespaceBeginTemplate`, GEN:1402-1431 and 954-957: the outermost
    namespace has the next one as its included dictionary. -/
def namespaceBegin : List String → String
  | [] => ""
  | n :: ns => ("namespace " ++ n ++ "\n{\n") ++ namespaceBegin ns

/-- The same with `namespaceEndTemplate`, GEN:959-961. -/
def namespaceEnd : List String → String
  | [] => ""
  | n :: ns => ("} // namespace " ++ n ++ "\n") ++ namespaceEnd ns

/-- `NAMESPACE_IF_CPP_BEGIN`, GEN:213-221. -/
def expectBegin (c : Config) (s : FunSection) : String :=
  if c.cpp then
    "namespace EasyMock\n{\n" ++ namespaceBegin s.ns ++ "\n" ++
    (match s.cls with | some k => "namespace " ++ k ++ "\n{\n" | none => "") ++
    ("namespace " ++ s.name ++ "\n{")
  else ""

/-- `NAMESPACE_IF_CPP_END`, GEN:223-229. -/
def expectEnd (c : Config) (s : FunSection) : String :=
  if c.cpp then
    ("} // namespace " ++ s.name ++ "\n") ++
    (match s.cls with | some k => "} // namespace " ++ k ++ "\n" | none => "") ++
    namespaceEnd s.ns ++ "\n" ++ "} // namespace EasyMock"
  else ""

/-- A function of the generated files: its dictionary and `ORIGIN_FILE_VAR` (GEN:1454). -/
structure Fun where
  sec : FunSection
  origin : String

/-- `GENERATE_COMMENT`, GEN:450-452. -/
def generateComment (f : Fun) : String :=
  ("/*------------------- GENERATING '" ++ mockSignature f.sec ++ "' -------------------*/\n") ++
  ("// from: " ++ f.origin ++ "\n")

/-- `END_GENERATE_COMMENT`, GEN:454-455. -/
def endGenerateComment (f : Fun) : String :=
  "/*----------------- END GENERATION '" ++ mockSignature f.sec ++ "' -----------------*/"

/-- `mustDeclareFunction` for a function of the root dictionary, GEN:1433-1437. -/
def mustDeclare (c : Config) (s : FunSection) : Bool := c.genTypes && s.cls.isNone

/-- The declaration of the mocked function, GEN:900-906. -/
def mockPrototype (c : Config) (s : FunSection) : String :=
  if mustDeclare c s then
    (if c.cpp then namespaceBegin s.ns ++ "\n" else "") ++ (mockSignature s ++ ";\n") ++
    (if c.cpp then namespaceEnd s.ns ++ "\n" else "")
  else ""

/-- A function in the header, GEN:898-913. -/
def headerFun (c : Config) (f : Fun) : String :=
  generateComment f ++ mockPrototype c f.sec ++ (expectBegin c f.sec ++ "\n") ++
  String.join ((headerDecls c f.sec).map (· ++ "\n")) ++ (expectEnd c f.sec ++ "\n") ++
  (endGenerateComment f ++ "\n")

/-- `COMPOSED_TYPED_COMPARE_FUNCTION_SIGNATURE`, GEN:444-445, for a comparator by its unique name. -/
def cmpSignature (n : String) : String :=
  "int cmp_" ++ n ++
  "(const void *currentCall_ptr, const void *expectedCall_ptr, const char *paramName, char *errorMessage )"

/-- `COMPOSED_TYPED_DEREF_PTR_COMPARE_FUNCTION_SIGNATURE`, GEN:447-448. -/
def cmpDerefSignature (n : String) : String :=
  "int cmp_deref_ptr_" ++ n ++
  "(const void *currentCall_ptr, const void *expectedCall_ptr, const char *paramName, char *errorMessage )"

/-- The prototypes of the comparators, GEN:892-895. -/
def headerCmp (n : String) : String := (cmpSignature n ++ ";\n") ++ (cmpDerefSignature n ++ ";\n")

/-- The text of the generated header, GEN:796-919: for a path to the mocked header, the text of the types, the comparators and
    the functions. -/
def headerText (c : Config) (path types : String) (cmps : List String) (fs : List Fun) : String :=
  licence ++
  ("#ifndef " ++ guard path ++ "\n") ++
  ("#define " ++ guard path ++ "\n") ++
  "\n" ++
  (if c.genTypes then "" else "#include \"" ++ fileName path ++ "\"\n") ++
  "#include <stdarg.h>\n" ++
  "#include <easyMock.h>\n" ++
  "\n" ++
  (if c.cpp then "" else "#ifdef __cplusplus\nextern \"C\" {\n#endif\n") ++
  (if c.genTypes then
    "/*------------------ GENERATING USED TYPE -------------------*/\n" ++ types ++
    "/*----------------- END GENERATING USED TYPE -----------------*/\n"
   else "") ++
  "\n" ++
  "/*----------------- GENERATING COMPARE SECTION -----------------*/\n" ++
  String.join (cmps.map headerCmp) ++
  "/*--------------- END GENERATING COMPARE SECTION ----------------*/\n" ++
  "\n" ++
  String.join (fs.map (headerFun c)) ++
  (if c.cpp then "" else "#ifdef __cplusplus\n}\n#endif\n") ++
  "#endif\n"

end EasyMock.CFile
