import Verif.Emit.Model

/-!
# What a C compiler makes of the generated type declarations

Independent of the generator: guards are evaluated by the preprocessor, then declarations are checked one after the
other against the tags, typedef names and enumerations declared before.

A tag may be mentioned at file scope without a declaration, but not first inside a parameter list (its scope would
end with the list).  An enumeration and a typedef name must be declared before they are mentioned.  A member must
have a complete type.  Nothing is defined twice.  Void members, bit widths, array bounds and duplicate member
names are not checked.
-/

namespace EasyMock.Emit

open EasyMock.Types

/-- The items which remain when the guards have been evaluated; `defined` are the macros defined before. -/
def visible : List String → List Item → List Item
  | _, [] => []
  | defined, x :: xs =>
    if defined.contains x.macro then visible defined xs else x :: visible (x.macro :: defined) xs

/-- The names known at a point of the text. -/
structure CEnv where
  /-- declared tags -/
  declared : List (Kw × String) := []
  /-- complete tags -/
  complete : List (Kw × String) := []
  tds : List String := []
  enums : List String := []
  deriving DecidableEq, Repr

section
variable {H : Type} (e : Env H)

/-- The tag by which a type is mentioned. -/
def tagOf (t : Ty) : String := if (attrs t).name.isEmpty then e.anon t else (attrs t).name

mutual
/-- The text of the type may be written; `inParams`: inside a parameter list. -/
def nameable (c : CEnv) (inParams : Bool) : Ty → Bool
  | .ctype .. => true
  | .ptr _ t => nameable c inParams t
  | .ref _ t => nameable c inParams t
  | .const _ t => nameable c inParams t
  | .tdef _ n _ => c.tds.contains n
  | .enum i n vs => c.enums.contains (tagOf e (.enum i n vs))
  | .comp i kw n fs emb fwd ms => !inParams || c.declared.contains (kw, tagOf e (.comp i kw n fs emb fwd ms))
  | .incomplete _ k n => !inParams || c.declared.contains (k, n)
  | .fn _ _ _ r ps => nameable c inParams r && paramsNameable c ps

/-- The same for the parameters of a function type. -/
def paramsNameable (c : CEnv) : Params → Bool
  | .nil => true
  | .cons _ t _ rest => nameable c true t && paramsNameable c rest
end

/-- The type is complete. -/
def completeIn (c : CEnv) : Ty → Bool
  | .const _ t => completeIn c t
  | .tdef _ _ t => completeIn c t
  | .enum i n vs => c.enums.contains (tagOf e (.enum i n vs))
  | .comp i kw n fs emb fwd ms => c.complete.contains (kw, tagOf e (.comp i kw n fs emb fwd ms))
  | .incomplete _ k n => c.complete.contains (k, n)
  | .fn .. => false
  | _ => true

/-- An object of the type may be declared. -/
def objectOk (c : CEnv) (t : Ty) : Bool := nameable e c false t && completeIn e c t

mutual
/-- The declaration of a composite type: the names after it, or `none` if it is not valid. -/
def declOk (c : CEnv) : Decl → Option CEnv
  | .mk kw n false _ => if c.complete.contains (kw, n) then some c else none
  | .mk kw n true ms =>
    match membersOk c ms with
    | none => none
    | some c' =>
      if n.isEmpty then some c'
      else if c'.complete.contains (kw, n) then none
      else some { c' with complete := (kw, n) :: c'.complete, declared := (kw, n) :: c'.declared }

/-- The members of a body. -/
def membersOk (c : CEnv) : Members → Option CEnv
  | .nil => some c
  | .plain _ t _ rest => if objectOk e c t then membersOk c rest else none
  | .sub d _ rest =>
    match declOk c d with
    | none => none
    | some c' => membersOk c' rest
end

/-- One declaration. -/
def itemOk (c : CEnv) : Item → Option CEnv
  | .fwd kw n => some { c with declared := (kw, n) :: c.declared }
  | .td n t => if nameable e c false t && !c.tds.contains n then some { c with tds := n :: c.tds } else none
  | .en n _ => if c.enums.contains n then none else some { c with enums := n :: c.enums }
  | .comp _ d => declOk e c d

/-- The declarations in their order. -/
def check : CEnv → List Item → Option CEnv
  | c, [] => some c
  | c, x :: xs => match itemOk e c x with | none => none | some c' => check c' xs

end

/-- The text after the name of a member of an array type with `a` elements; -1 is no array. -/
def boundOf (a : Int) : String := if a = -1 then "" else "[" ++ toString a ++ "]"

section
variable {H : Type} (e : Env H)

/-- The type without name behind pointers, references and qualifiers, if there is one. -/
def nameless : Ty → Option Ty
  | .ptr _ t | .ref _ t | .const _ t => nameless t
  | .enum i n vs => if n = "" then some (.enum i n vs) else none
  | .comp i kw n fs emb fwd ms => if n = "" then some (.comp i kw n fs emb fwd ms) else none
  | _ => none

/-- The text in front of a name: as written in the source, or made from the type, and the generated name of a type without name. -/
def written (s : String) (t : Ty) : String :=
  (if s = "" then declPrefix t else s) ++ (match nameless t with | some u => " " ++ e.anon u | none => "")

/-- A composite type. -/
def composite : Ty → Bool
  | .comp .. => true
  | _ => false

mutual
/-- A body has the members of the type: the same number in the same order, with the same types, names, bounds and
    widths; composite types are declared in place. -/
def Mirror : Fields → Members → Prop
  | .nil, .nil => True
  | .field s t n a rest, .plain d u m ms => composite t = false ∧ d = written e s t ∧ u = t ∧ m = n ++ boundOf a ∧ Mirror rest ms
  | .field _ t n a rest, .sub d m ms => MirrorDecl t d ∧ m = (if n = "" then "" else n ++ boundOf a) ∧ Mirror rest ms
  | .bit s t n k rest, .plain d u m ms => composite t = false ∧ d = written e s t ∧ u = t ∧ m = n ++ ":" ++ toString k ∧ Mirror rest ms
  | .bit _ t n _ rest, .sub d m ms => MirrorDecl t d ∧ m = n ∧ Mirror rest ms
  | _, _ => False

/-- A composite type inside a body: the same keyword and the same name, and if there is a body it has the members of
    the type; an anonymous type has a body. -/
def MirrorDecl : Ty → Decl → Prop
  | .comp _ kw n fs _ _ _, .mk kw' n' body ms => kw' = kw ∧ n' = n ∧ (n = "" → body = true) ∧
      (body = true → Mirror fs ms)
  | _, _ => False
end

end

/-- A section declares the type for which it was made. -/
def Faithful {H : Type} (e : Env H) : Comp → Prop
  | ⟨.comp i kw n fs emb fwd ms, _, .mk kw' n' body ds⟩ =>
    fwd = false ∧ kw' = kw ∧ n' = tagOf e (.comp i kw n fs emb fwd ms) ∧ body = true ∧ Mirror e fs ds
  | _ => False

/-- The names after the type section of the generated header, or `none` if it is not valid. -/
def headerEnv {H : Type} [DecidableEq H] (e : Env H) (fs : List FunDecl) : Option CEnv :=
  check e {} (visible [] (items (emit e fs)))

end EasyMock.Emit
