/-!
# Parser: the namespace of a function

Model of `getNamespace`, `src/easyMockGenerate/src/LLVMParser/LLVMParser.cpp` (PARSER) 468-487.
-/

namespace EasyMock.Parser

/-- `clang::DeclContext`: its name if it is a namespace, and the namespaces declared directly in it, in the order of
    `lookups()`. -/
structure Scope where
  name : Option String
  children : List String
  deriving DecidableEq, Repr

/-- `getNamespace` of the first scope of the list, whose parents follow: the names of the `Namespace` object and its parents,
    outermost first, without the global namespace, PARSER:468-487. -/
def getNamespace : List Scope → List String
  | [] => []
  | s :: parents =>
    match s.children with
    | n :: _ => getNamespace parents ++ [n]
    | [] => getNamespace parents

end EasyMock.Parser
