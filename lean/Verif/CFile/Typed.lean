import Verif.CFile.SourceModel

/-!
# CFile: the types of the members

Model of the texts which `CodeGeneratorCTemplate.cpp` (GEN) gives to the members of the data structure: the values set in
`generateFunctionSection` (GEN:1473-1511) and `generateFunctionParamSection` (GEN:1576-1607), with
`getNonQualifiedDereferencedDeclaratorString` (GEN:2421-2425) and `getDereferencedType` (GEN:2427-2435).

Simplification.  As in `Verif.Gen.Model`, the names made for anonymous types (GEN:2459-2468) are not represented.
-/

namespace EasyMock.CFile

open EasyMock.Gen
open EasyMock.Types (Ty Params FunDecl)

/-- `getNonQualifiedDereferencedDeclaratorString`, GEN:2421-2425. -/
def nonQualifiedText (t : Ty) : String := Types.fullName (unqualify (Types.dereferenced t))

/-- The member for a parameter declared with the text `s` (empty: none) and the type `t`, GEN:1581-1607: `PARAMETER_RAW_TYPE` is the
    name of the raw type, `FUNCTION_PARAM_NON_QUALIFIED_TYPE` the text of the parameter itself if it is a pointer. -/
def memberOf (s : String) (t : Ty) : MemberType :=
  match unqualify t with
  | .ref _ _ => .reference (Types.attrs (Types.rawType t)).name (Types.fullName (Types.dereferenced t))
  | .ptr _ _ => .regular (Types.declareString s t)
  | _ => .regular (nonQualifiedText t)

/-- The members for the parameters, GEN:1570-1642. -/
def membersOf : Params → List MemberType
  | .nil => []
  | .cons s t _ rest => memberOf s t :: membersOf rest

/-- The member for the result, GEN:1475, 1486 and 1503-1511. -/
def resultOf (t : Ty) : MemberType :=
  match t with
  | .ref _ _ => .reference (nonQualifiedText t) (Types.fullName (Types.dereferenced t))
  | _ => .regular (nonQualifiedText t)

/-- A function of the source, with the value of `m_nbUnamedParam` in front of it; `ORIGIN_FILE_VAR`, GEN:1454. -/
def srcFun (c : Config) (k : Nat) (f : FunDecl) : SrcFun :=
  { sec := (funSection c k f).1, origin := f.originFile, members := membersOf f.params, result := resultOf f.ret }

/-- The functions of the source, GEN:1313-1365. -/
def srcFuns (c : Config) : Nat → List FunDecl → List SrcFun
  | _, [] => []
  | k, f :: fs => srcFun c k f :: srcFuns c (funSection c k f).2 fs

end EasyMock.CFile
