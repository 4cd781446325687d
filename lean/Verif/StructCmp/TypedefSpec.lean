import Verif.StructCmp.Spec

/-! # StructCmp: programs with typedefs of structures and unions -/

namespace EasyMock.StructCmp

open EasyMock.Types

mutual
/-- Structures and unions which are complete and declared at file scope, and so are those inside of them; typedefs, and unnamed
    members declared in place, are allowed.  `named` says whether the type belongs to a member with a name or to a parameter. -/
def AtFileScope (named : Bool) : Ty → Prop
  | .ref _ t => AtFileScope named t
  | .const _ t => AtFileScope named t
  | .tdef _ _ t => AtFileScope named t
  | .comp _ _ _ fs emb fwd _ => (named = true → emb = false ∧ fwd = false) ∧ MembersAtFileScope fs
  | _ => True
/-- The same for the members: no typedef stands for a pointer to a structure, and no member has a type which is still being
    defined. -/
def MembersAtFileScope : Fields → Prop
  | .nil => True
  | .field _ t n _ rest => comparedAsComposite t = holdsMembers t ∧ AtFileScope (n != "") t ∧ MembersAtFileScope rest
  | .bit _ _ _ _ rest => MembersAtFileScope rest
end

/-- The typedefs on the way to the structure or union behind pointers, each with its type. -/
def typedefsBehind : Ty → List (String × Ty)
  | .ptr _ t => typedefsBehind t
  | .ref _ t => typedefsBehind t
  | .const _ t => typedefsBehind t
  | .tdef _ n t => (n, t) :: typedefsBehind t
  | _ => []

mutual
/-- The names of the structures and unions in a type: `<keyword>_<tag>`, and the typedefs. -/
def namesIn (env : Env) : Ty → List (String × Ty)
  | .ref _ t => namesIn env t
  | .const _ t => namesIn env t
  | .tdef _ _ t => namesIn env t
  | .comp i kw n fs emb fwd ms => (tagName env (.comp i kw n fs emb fwd ms), .comp i kw n fs emb fwd ms) :: namesInFields env fs
  | _ => []
/-- The same for the members. -/
def namesInFields (env : Env) : Fields → List (String × Ty)
  | .nil => []
  | .field _ t _ _ rest => typedefsBehind t ++ namesIn env t ++ namesInFields env rest
  | .bit _ t _ _ rest => typedefsBehind t ++ namesInFields env rest
end

/-- A parameter brings the name `N` for the structure or union `u`. -/
def NamesType (env : Env) (ts : List Ty) (N : String) (u : Ty) : Prop :=
  isComposable u = true ∧ ∃ t ∈ ts, (N, u) ∈ typedefsBehind t ∨ (N, u) ∈ namesIn env (rawType t)

end EasyMock.StructCmp
