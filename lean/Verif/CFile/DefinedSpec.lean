import Verif.CFile.Code

/-! # CFile: which names a file defines

A reader of the name which a declaration introduces, written from the rules of C and C++ and not from the generator.  It knows
declarations whose name is not inside brackets: no pointers to functions, and no results which are one.  A declaration is a definition
unless it is the prototype of a function. -/

namespace EasyMock.CFile

/-- The word starts an attribute. -/
def attributeWord (w : List Char) : Bool := "__attribute__((".toList.isPrefixOf w

/-- The words in front of an initialiser, without attributes and the braces of members. -/
def nameWords (t : List Char) : List (List Char) :=
  ((words t).takeWhile (fun w => w != ['='])).filter (fun w => !attributeWord w && w != "{}".toList)

/-- The name which a declaration introduces: it stands in front of the parameters of a function and at the end otherwise. -/
def definedName (t : List Char) : List Char :=
  match (nameWords t).find? (fun w => w.contains '(') with
  | some w => w.takeWhile (fun c => c != '(')
  | none => ((nameWords t).getLast?.getD []).takeWhile (fun c => c != '{')

/-- The declaration is a definition: it is not the prototype of a function. -/
def Entry.isDefinition (e : Entry) : Bool := e.inside.isSome || (nameWords e.text).all (fun w => !w.contains '(')

/-- The names which declarations define, each with the namespaces around it. -/
def definitions (es : List Entry) : List (List Scope × List Char) :=
  (es.filter Entry.isDefinition).map (fun e => (e.scopes, definedName e.text))

end EasyMock.CFile
