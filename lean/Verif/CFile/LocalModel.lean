import Verif.CFile.TypesModel
import Verif.StructCmp.Model

/-!
# CFile: the declaration of a type inside its comparator

Model of the declaration which the comparator of a type without name, declared inside another type, makes of this type
(`src/easyMockGenerate/src/CTemplateGenerator/CodeGeneratorCTemplate.cpp` (GEN) 511-513 and 2287-2291):
`generateDeclarationOfComposableType` (GEN:2119-2241) with `p_nbLevelToGenerate` -1 and the origin `GENERATE_COMPARE_FUNCTION`.

The number of levels starts at -1 and becomes smaller (GEN:2173-2182), so it is never 0: every composite type inside the type gets a body
(`generateBody`, GEN:2122), and as its origin is `GENERATE_SUB_LEVEL_USED_TYPE` it gets no name (`generateName`, GEN:2123-2125), even if it has
one.

Simplifications.
* C mode: no functions in the bodies of types.
* The sections which the calls inside (GEN:2208, 2225-2229) add to the dictionaries of other declarations are not represented here.
* The blanks with which ctemplate indents the lines of an included template are not represented.
-/

namespace EasyMock.CFile

open EasyMock.Types (Ty Fields Kw)

variable {H : Type} (e : Emit.Env H)

/-- The loop over the fields, GEN:2162-2234. -/
def localMembers : Fields → Emit.Members
  | .nil => .nil
  | .field d t n a rest =>
    match t with
    | .comp _ kw _ fs _ _ _ => .sub (.mk kw "" true (localMembers fs)) (if n.isEmpty then n else n ++ Emit.boundText a) (localMembers rest)
    | t => .plain (Emit.declarator e d t) t (n ++ Emit.boundText a) (localMembers rest)
  | .bit d t n k rest =>
    match t with
    | .comp _ kw _ fs _ _ _ => .sub (.mk kw "" true (localMembers fs)) n (localMembers rest)
    | t => .plain (Emit.declarator e d t) t (n ++ ":" ++ toString k) (localMembers rest)

/-- The dictionary of the declaration, GEN:2119-2161; other types have none. -/
def localDecl : Ty → Option Emit.Decl
  | .comp i kw n fs emb fwd ms => some (.mk kw (Emit.tag e (.comp i kw n fs emb fwd ms)) true (localMembers e fs))
  | _ => none

/-- The text between the comments of GEN:511 and 513 in the comparator of a type: the condition of GEN:2288. -/
def localText (num : Ty → String → Nat) (t : Ty) : String :=
  if Types.isAnonymous t && StructCmp.embedded t then
    match localDecl e t with
    | some d => recordText num "" d
    | none => ""
  else ""

/-- The declarations of types as the comparators name them: `getUniqueId` of the types without name. -/
def asEmit (env : StructCmp.Env) : Emit.Env Nat := ⟨env.key, StructCmp.anonymousName env⟩

end EasyMock.CFile
