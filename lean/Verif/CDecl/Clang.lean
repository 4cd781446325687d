import Verif.CDecl.Types
import Verif.Parser.TypesSpec

/-! # CDecl: the types of a program as a declaration says them

Nothing here refers to the parser or to the texts of the generator. -/

namespace EasyMock.CDecl

open EasyMock.Parser (CTy Q Qs Decls Builtin)

/-- The words which name a builtin type in C. -/
def builtinWords : Builtin → List String
  | .void => ["void"] | .bool => ["_Bool"] | .charS => ["char"] | .charU => ["char"] | .schar => ["signed", "char"]
  | .uchar => ["unsigned", "char"] | .short => ["short"] | .ushort => ["unsigned", "short"] | .int => ["int"]
  | .uint => ["unsigned", "int"] | .long => ["long"] | .ulong => ["unsigned", "long"] | .longLong => ["long", "long"]
  | .ulongLong => ["unsigned", "long", "long"] | .int128 => ["__int128"] | .uint128 => ["unsigned", "__int128"]
  | .float => ["float"] | .double => ["double"] | .longDouble => ["long", "double"] | .other => []

/-- A function, or a typedef of one. -/
def CFn : CTy → Prop
  | .fn .. => True
  | .tdef _ (.mk _ _ t) => CFn t
  | _ => False

instance : (t : CTy) → Decidable (CFn t)
  | .fn .. => isTrue trivial
  | .tdef _ (.mk _ _ t) => instDecidableCFn t
  | .builtin _ | .ptr _ | .ref _ | .arr _ _ | .record _ | .enum _ => isFalse id

/-- An array, or a typedef of one. -/
def CArr : CTy → Prop
  | .arr .. => True
  | .tdef _ (.mk _ _ t) => CArr t
  | _ => False

mutual
/-- A type of the program; typedefs are known by their names, except those of functions, which are expanded. -/
def spell (D : Decls) : CTy → Sem
  | .builtin b => .named ((builtinWords b).map String.toList)
  | .ptr q => .ptr (spellQ D q)
  | .ref q => .ref (spellQ D q)
  | .arr n q => .arr n (spellQ D q)
  | .record id => .named [(kwWord (D.records id).kw).toList, (D.records id).tag.toList]
  | .enum id => .named ["enum".toList, (D.enums id).tag.toList]
  | .fn r ps v => .fn (spellQ D r) (spellQs D ps) v
  | .tdef n (.mk _ _ t) => if CFn t then spell D t else .named [n.toList]

/-- A qualified type. -/
def spellQ (D : Decls) : Q → Sem
  | .mk k v t =>
    let s := if v then .qual "volatile".toList (spell D t) else spell D t
    if k then .qual "const".toList s else s

/-- The types of parameters. -/
def spellQs (D : Decls) : Qs → Sems
  | .nil => .nil
  | .cons q qs => .cons (spellQ D q) (spellQs D qs)
end

/-- No function behind pointers, references, arrays and typedefs. -/
def CNoFn : CTy → Prop
  | .ptr (.mk _ _ t) | .ref (.mk _ _ t) | .arr _ (.mk _ _ t) | .tdef _ (.mk _ _ t) => CNoFn t
  | .fn .. => False
  | _ => True

/-- The builtin types which keep their name (C73). -/
def PlainBuiltin (charSigned : Bool) : Builtin → Prop
  | .schar | .bool | .other => False
  | .charS | .uchar => charSigned = true
  | .charU => charSigned = false
  | _ => True

mutual
/-- The types of the program which the mock is declared with.  `below`: behind a pointer.  What is excluded: some builtin
    types (C73), `volatile` and arrays behind pointers, types without name, variadic functions behind pointers, a reference
    to a pointer to a function, and a typedef of a pointer to a function behind a pointer. -/
def Plain (D : Decls) (below : Bool) : CTy → Prop
  | .builtin b => PlainBuiltin D.charSigned b
  | .ptr q => PlainQ D true q
  | .ref (.mk k v t) => PlainQ D true (.mk k v t) ∧ (below = false → CNoFn t)
  | .arr .. => False
  | .record id => Word (D.records id).tag
  | .enum id => Word (D.enums id).tag
  | .fn r ps v => below = true ∧ v = false ∧ PlainQ D false r ∧ PlainQs D ps
  | .tdef n (.mk _ _ t) => Word n ∧ ¬ CArr t ∧ (CFn t → Plain D below t) ∧ (¬ CFn t → below = true → CNoFn t)

/-- The same for a qualified type. -/
def PlainQ (D : Decls) (below : Bool) : Q → Prop
  | .mk k v t => v = false ∧ Plain D below t ∧ (k = true → ¬ CFn t)

/-- The same for parameters. -/
def PlainQs (D : Decls) : Qs → Prop
  | .nil => True
  | .cons q qs => PlainQ D false q ∧ PlainQs D qs
end

end EasyMock.CDecl
