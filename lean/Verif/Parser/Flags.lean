import Verif.Basic

/-!
# Parser: the command line of clang

Model of `LLVMParser::getElementToMockContext`, `src/easyMockGenerate/src/LLVMParser/LLVMParser.cpp` (PARSER) 1283-1318: the arguments which
the compilation database gives to clang.

Simplifications.  `boost::filesystem::canonical` (PARSER:1305), which makes the path of the header absolute, and the arguments which clang's
tooling library adds itself are not represented; `FixedCompilationDatabase` puts the name of a tool in front and the header behind.
-/

namespace EasyMock.Parser

/-- `std::getline(stream, token, ':')` until it fails, PARSER:1299: `acc` holds the characters of the token read so far, the last one first.  At
    the end of the text `getline` fails if it has read no character. -/
def getlines (acc : List Char) : List Char → List (List Char)
  | [] => if acc.isEmpty then [] else [acc.reverse]
  | c :: rest => if c = ':' then acc.reverse :: getlines [] rest else getlines (c :: acc) rest

/-- `LLVMExtraArgs`, PARSER:1285-1304: the flags of the user in their order, then the implicit include directories of the compiler. -/
def clangArgs (flags : List String) (implicit : String) : List String :=
  flags ++ (getlines [] implicit.toList).map (fun d => "-I" ++ String.ofList d)

end EasyMock.Parser
