import Verif.CDecl.Spec
import Verif.Gen.Model

/-! # CDecl: the types of the generator as they should be read

Nothing here refers to the texts the generator writes. -/

namespace EasyMock.CDecl

open EasyMock.Types (Ty Params CT Kw)

/-- The words which name a scalar type in C. -/
def words : CT → List String
  | .char => ["char"] | .uchar => ["unsigned", "char"] | .schar => ["signed", "char"] | .short => ["short"]
  | .ushort => ["unsigned", "short"] | .int => ["int"] | .uint => ["unsigned", "int"] | .long => ["long"]
  | .ulong => ["unsigned", "long"] | .longLong => ["long", "long"] | .ulongLong => ["unsigned", "long", "long"]
  | .float => ["float"] | .double => ["double"] | .longDouble => ["long", "double"]
  | .int128 => ["__int128"] | .uint128 => ["unsigned", "__int128"] | .void => ["void"] | .invalid => ["invalid"]

/-- The keyword of a composite type. -/
def kwWord : Kw → String
  | .struct => "struct" | .union => "union" | .cls => "class"

mutual
/-- The type, layer by layer; a typedef is known by its name. -/
def semOf : Ty → Sem
  | .ctype c _ _ => .named ((words c).map String.toList)
  | .ptr _ t => .ptr (semOf t)
  | .ref _ t => .ref (semOf t)
  | .const _ t => .qual "const".toList (semOf t)
  | .tdef _ n _ => .named [n.toList]
  | .enum _ n _ => .named ["enum".toList, n.toList]
  | .comp _ kw n _ _ _ _ | .incomplete _ kw n => .named [(kwWord kw).toList, n.toList]
  | .fn _ info _ r ps => .fn (semOf r) (semsOf ps) info.variadic

/-- The types of parameters. -/
def semsOf : Params → Sems
  | .nil => .nil
  | .cons _ t _ rest => .cons (semOf t) (semsOf rest)
end

/-- An identifier. -/
def Word (n : String) : Prop := n ≠ "" ∧ (∀ c ∈ n.toList, wordChar c = true) ∧ isQual n.toList = false

instance (n : String) : Decidable (Word n) := inferInstanceAs (Decidable (_ ∧ _ ∧ _))

/-- A function type. -/
def IsFn : Ty → Prop
  | .fn .. => True
  | _ => False

/-- No function behind pointers, references, qualifiers and typedefs. -/
def NoFn : Ty → Prop
  | .ptr _ t | .ref _ t | .const _ t | .tdef _ _ t => NoFn t
  | .fn .. => False
  | _ => True

mutual
/-- The types the generator can declare.  `below`: behind a pointer.  What is excluded: types without name, functions which
    are no pointers to functions, variadic ones, a reference to a pointer to a function, and a typedef of a function behind a
    pointer. -/
def Spellable (below : Bool) : Ty → Prop
  | .ctype .. => True
  | .ptr _ t => Spellable true t
  | .ref _ t => Spellable true t ∧ (below = false → NoFn t)
  | .const _ t => Spellable below t ∧ ¬ IsFn t
  | .tdef _ n t => Word n ∧ (below = true → NoFn t)
  | .enum _ n _ | .comp _ _ n _ _ _ _ | .incomplete _ _ n => Word n
  | .fn _ info _ r ps => below = true ∧ info.variadic = false ∧ Spellable false r ∧ Spellables ps

/-- The same for parameters; their source texts are not used, or are the text of the type. -/
def Spellables : Params → Prop
  | .nil => True
  | .cons s t n rest => (s = "" ∨ s = Types.declPrefix t) ∧ Spellable false t ∧ (n = "" ∨ Word n) ∧ Spellables rest
end

end EasyMock.CDecl
