import Verif.CFile.TypesSpec
import Verif.CDecl.Clang

/-!
# CFile: what it means that a text declares the members of a record of the program

Nothing here refers to the parser's conversion of types or to the generator: a text is read with the readers of declarations and of
files, and what it says is compared with clang's record.
-/

namespace EasyMock.CFile.TypeDecl

open EasyMock.CDecl (Sem kwWord spellQ)
open EasyMock.Parser (CTy Q Decls FieldD)

mutual
/-- What the elements of an array of arrays are; a type which is written without bounds is its own element. -/
def elemQ : Q → Q
  | .mk k v t => (elemT t).getD (.mk k v t)

/-- The same for a type without qualifiers, if it is an array. -/
def elemT : CTy → Option Q
  | .arr _ q => some (elemQ q)
  | _ => none
end

mutual
/-- The bounds behind the name of a member, the outer one first. -/
def boundsQ : Q → String
  | .mk _ _ t => boundsT t

/-- The same for a type without qualifiers. -/
def boundsT : CTy → String
  | .arr n q => "[" ++ (match n with | some k => toString k | none => "") ++ "]" ++ boundsQ q
  | _ => ""
end

/-- The members with which a record is defined: all of them, but none if the option `--ignore-field-generation-of` names the record. -/
def writtenMembers (D : Decls) (id : Nat) : List FieldD := if (D.records id).tag ∈ D.ignored then [] else (D.records id).fields

mutual
/-- A text declares the member `f`: its name with its type, its bounds or its width; or the members of its type in place. -/
inductive MemberOf (D : Decls) : List Char → FieldD → Prop
  | plain {text f} : f.bits = none → f.name ≠ "" → Declares text (spellQ D (elemQ f.q)) f.name.toList (boundsQ f.q).toList → MemberOf D text f
  | bits {text f w} : f.bits = some w → f.name ≠ "" → Declares text (spellQ D f.q) f.name.toList (":" ++ toString w).toList → MemberOf D text f
  | pad {text f w} : f.bits = some w → f.name = "" → Pads text (spellQ D f.q) (":" ++ toString w).toList → MemberOf D text f
  | record {text f id head body tail ds} : f.bits = none → elemQ f.q = .mk false false (.record id) → Braces text head body tail →
      words head = (kwWord (D.records id).kw).toList :: (if (D.records id).tag = "" then [] else [(D.records id).tag.toList]) →
      trim tail = f.name.toList ++ (boundsQ f.q).toList → Holds body ds → MembersOf D ds (writtenMembers D id) → MemberOf D text f

/-- Texts declare the members of a record, in their order. -/
inductive MembersOf (D : Decls) : List (List Char) → List FieldD → Prop
  | nil : MembersOf D [] []
  | cons {text ds f fs} : MemberOf D text f → MembersOf D ds fs → MembersOf D (text :: ds) (f :: fs)
end

/-- A text defines the record `id` of the program with all its members, under this tag. -/
def RecordOf (D : Decls) (text : List Char) (id : Nat) (tag : String) : Prop :=
  ∃ head body tail ds, Braces text head body tail ∧ words head = [(kwWord (D.records id).kw).toList, tag.toList] ∧ trim tail = [] ∧
    Holds body ds ∧ MembersOf D ds (writtenMembers D id)

end EasyMock.CFile.TypeDecl
