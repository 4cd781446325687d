import Verif.Emit.Model
import Verif.CFile.Model

/-!
# CFile: the text of the used types

Model of the part of the template of the header which prints the used types (`--generate-types`),
`src/easyMockGenerate/src/CTemplateGenerator/CodeGeneratorCTemplate.cpp` (GEN) 834-889, of the templates of composite types 921-939, and of
the values set by `generateForwardDeclaration` (GEN:2077-2117), `generateDeclarationOfComposableType` (GEN:2119-2241),
`getDeclaratorString` (GEN:2437-2470), `generateSimpleTypeDef` (GEN:2491-2539) and `generateEnum` (GEN:2541-2583), for the sections that
`Verif.Emit.Model` describes.

Simplifications.
* C mode: no functions in the bodies of types.
* The number of the first unnamed parameter of a pointer to a function (`m_nbUnamedParam`) is a parameter: a function of the type and of
  the name of the member.
* The blanks with which ctemplate indents the lines of an included template are not represented.
-/

namespace EasyMock.CFile

open EasyMock.Emit (Item)
open EasyMock.Types (Ty Kw)

/-- `EXTRA_DECL_SECTION` of a member of type `t`, GEN:2219-2228. -/
def memberExtra (num : Ty → String → Nat) (t : Ty) (name : String) : String := (Gen.extraOf false (num t name) t).1.text

mutual
/-- The template of a composite type, GEN:921-933; `field` is the name of the member declared in place (empty: none). -/
def recordText (num : Ty → String → Nat) (field : String) : Emit.Decl → String
  | .mk kw name body ms =>
    kw.str ++ " " ++ name ++
    (if body then "\n{\n" ++ "    " ++ membersText num ms ++ "\n}" else "") ++
    (if field.isEmpty then "" else " " ++ field) ++ ";\n"

/-- The template of a member, GEN:935-939, for all members. -/
def membersText (num : Ty → String → Nat) : Emit.Members → String
  | .nil => ""
  | .plain d t n rest => (d ++ " " ++ n ++ memberExtra num t n ++ ";\n") ++ membersText num rest
  | .sub d n rest => recordText num n d ++ membersText num rest
end

variable {H : Type} (e : Emit.Env H)

/-- The text behind `typedef `, GEN:2511-2537 and 862. -/
def typedefText (name : String) (t : Ty) : String :=
  match Types.rawType t with
  | .fn i info r ret ps => Types.fullName t ++ name ++ Types.declPostfix (.fn i info r ret ps) ++ " " ++ ""
  | raw => Types.fullName t ++ (if (Types.attrs raw).name.isEmpty then " " ++ e.anon raw else "") ++ " " ++ name

/-- A value of an enumeration, GEN:873. -/
def enumeratorText (v : Nat × String) : String := "  " ++ v.2 ++ " = " ++ toString v.1 ++ ",\n"

/-- What the guards of a declaration enclose, GEN:856, 862, 869-875 and 881-883. -/
def itemBody (num : Ty → String → Nat) : Item → String
  | .fwd kw n => recordText num "" (.mk kw n false .nil) ++ " //GENERATED_TYPE_FORWARD_DECLARATION_SECTION\n"
  | .td n t => "typedef " ++ typedefText e n t ++ ";\n"
  | .en n vs => "enum " ++ n ++ "\n{\n" ++ String.join (vs.map enumeratorText) ++ "};\n"
  | .comp _ d => "//GENERATED_TYPE_SECTION\n" ++ recordText num "" d ++ "\n"

/-- A declaration of the header with its guards. -/
def itemText (num : Ty → String → Nat) (x : Item) : String :=
  ("#ifndef " ++ x.macro ++ "\n") ++ ("#define " ++ x.macro ++ "\n") ++ itemBody e num x ++ ("#endif //" ++ x.macro ++ "\n")

/-- The text of the used types, GEN:834-889, behind the first comment. -/
def typesText (num : Ty → String → Nat) (macros : List Gen.Macro) (is : List Item) : String :=
  String.join (macros.map Gen.macroText) ++ String.join (is.map (itemText e num))

end EasyMock.CFile
