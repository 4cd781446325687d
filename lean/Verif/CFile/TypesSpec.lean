import Verif.CFile.Spec
import Verif.CDecl.Types
import Verif.Emit.Spec

/-!
# CFile: what the text of a declaration of a type says

Readings of the declarations of types, independent of the generator: the reader of files cuts a text into declarations
(`Verif.CFile.Spec`), the reader of declarations finds the name and the type of a declaration without braces (`Verif.CDecl.Spec`).
That reader knows neither the bounds of arrays nor the widths of bit-fields, and every parameter has a name for it; so bounds and
widths are taken from behind the name of a member, and names are written behind the parameters of a typedef, before it reads.
-/

namespace EasyMock.CFile.TypeDecl

open EasyMock.Types (Ty Kw Fields)
open EasyMock.CDecl (Sem kwWord)

/-- The text between braces is the list of these declarations. -/
def Holds (body : List Char) (ds : List (List Char)) : Prop :=
  body.foldlM Reader.step Reader.start = some ⟨[], .top, none, false, [], ds.map (fun d => ⟨[], d, none⟩)⟩

/-- A text with braces: what is in front of the first, between, and behind the last one. -/
def Braces (t head body tail : List Char) : Prop := t = head ++ '{' :: (body ++ '}' :: tail) ∧ '{' ∉ head ∧ '}' ∉ tail

/-- A text cut at the commas; `acc` is the piece so far. -/
def cutFrom (acc : List Char) : List Char → List (List Char)
  | [] => [acc]
  | c :: cs => if c = ',' then acc :: cutFrom [] cs else cutFrom (acc ++ [c]) cs

/-- Parameters without names get the name `x`. -/
def nameEach (t : List Char) : List Char :=
  if t.all blank then t else t.flatMap (fun c => if c = ',' then [' ', 'x', ','] else [c]) ++ [' ', 'x']

/-- The parameters of the last list of a declaration get names. -/
def nameParams (t : List Char) : List Char :=
  match t.reverse with
  | ')' :: r => (r.dropWhile (· ≠ '(')).reverse ++ nameEach (r.takeWhile (· ≠ '(')).reverse ++ [')']
  | _ => t

section
variable {H : Type} (e : Emit.Env H)

/-- A type, layer by layer; a type without a name has the generated one. -/
def semIn : Ty → Sem
  | .ptr _ t => .ptr (semIn t)
  | .ref _ t => .ref (semIn t)
  | .const _ t => .qual "const".toList (semIn t)
  | .enum i n vs => .named ["enum".toList, (Emit.tagOf e (.enum i n vs)).toList]
  | .comp i kw n fs emb fwd ms => .named [(kwWord kw).toList, (Emit.tagOf e (.comp i kw n fs emb fwd ms)).toList]
  | t => CDecl.semOf t

/-- A text without braces declares a member: its bounds or its width stand behind its name, and without them the text declares the
    name with the type. -/
def Declares (t : List Char) (S : Sem) (n suffix : List Char) : Prop :=
  ∃ a b, t = a ++ n ++ suffix ++ b ∧ '{' ∉ t ∧ (b = [] ∨ (∃ r, b = ')' :: r) ∧ ')' ∉ a) ∧
    CDecl.read (String.ofList (a ++ n ++ b)) = some (n, S)

/-- A text declares a bit-field without a name. -/
def Pads (t : List Char) (S : Sem) (suffix : List Char) : Prop :=
  ∃ a, t = a ++ suffix ∧ '{' ∉ t ∧ CDecl.read (String.ofList (a ++ " x".toList)) = some ("x".toList, S)

mutual
/-- A text declares a member of type `t` with this name and these bounds or this width: without braces, or with the members of a
    composite type. -/
inductive Member : List Char → Ty → List Char → List Char → Prop
  | plain {text t n suffix} : n ≠ [] → Declares text (semIn e t) n suffix → Member text t n suffix
  | pad {text t suffix} : suffix ≠ [] → Pads text (semIn e t) suffix → Member text t [] suffix
  | record {text i kw m fs emb fwd ms n suffix head body tail ds} : Braces text head body tail →
      words head = (kwWord kw).toList :: (if m = "" then [] else [m.toList]) → trim tail = n ++ suffix → Holds body ds →
      Members ds fs → Member text (.comp i kw m fs emb fwd ms) n suffix

/-- Texts declare the members of a composite type, in their order. -/
inductive Members : List (List Char) → Fields → Prop
  | nil : Members [] .nil
  | field {text ds s t n a rest} : Member text t n.toList (if n = "" then [] else (Emit.boundOf a).toList) → Members ds rest →
      Members (text :: ds) (.field s t n a rest)
  | bit {text ds s t n k rest} : Member text t n.toList (":" ++ toString k).toList → Members ds rest →
      Members (text :: ds) (.bit s t n k rest)
end

/-- The elements of two lists belong together, one by one. -/
inductive Each {α β : Type} (R : α → β → Prop) : List α → List β → Prop
  | nil : Each R [] []
  | cons {a b as bs} : R a b → Each R as bs → Each R (a :: as) (b :: bs)

/-- A text declares a tag. -/
def Forward (text : List Char) (kw : Kw) (n : String) : Prop := words text = [(kwWord kw).toList, n.toList]

/-- A text declares a typedef. -/
def Typedef (text : List Char) (n : String) (t : Ty) : Prop :=
  ∃ d, text = "typedef ".toList ++ d ∧ CDecl.read (String.ofList (nameParams d)) = some (n.toList, semIn e t)

/-- A text defines an enumeration with these values. -/
def Enumeration (text : List Char) (n : String) (vs : List (Nat × String)) : Prop :=
  ∃ head body tail, Braces text head body tail ∧ words head = ["enum".toList, n.toList] ∧ trim tail = [] ∧
    (cutFrom [] body).map words = vs.map (fun v => [v.2.toList, "=".toList, (toString v.1).toList]) ++ [[]]

/-- A text defines a composite type with its members. -/
def Record (text : List Char) : Ty → Prop
  | .comp i kw n fs emb fwd ms =>
    ∃ head body tail ds, Braces text head body tail ∧
      words head = [(kwWord kw).toList, (Emit.tagOf e (.comp i kw n fs emb fwd ms)).toList] ∧ trim tail = [] ∧ Holds body ds ∧
      Members e ds fs
  | _ => False

end

end EasyMock.CFile.TypeDecl
