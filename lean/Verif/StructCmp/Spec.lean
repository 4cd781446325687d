import Verif.StructCmp.Model

/-! # StructCmp: what it means for two C objects to be equal, and where they differ -/

namespace EasyMock.StructCmp

open EasyMock.Types

/-- The object behind references, qualifiers and typedefs: what a field of this type holds in C. -/
def object : Ty → Ty
  | .ref _ t => object t
  | .const _ t => object t
  | .tdef _ _ t => object t
  | t => t

/-- In C, a field of this type is an object with members. -/
def holdsMembers (t : Ty) : Bool := isComposable (object t)

/-! ## Equality of objects -/

mutual
/-- Two objects of a composite type are equal. -/
def Same {S : Type} (neq : S → S → Bool) : Ty → Val S → Val S → Prop
  | .ref _ t, v, w => Same neq t v w
  | .const _ t, v, w => Same neq t v w
  | .tdef _ _ t, v, w => Same neq t v w
  | .comp _ _ _ fs _ _ _, v, w => SameFields neq fs v.member w.member
  | _, v, w => ∃ a b, v = .scalar a ∧ w = .scalar b ∧ neq a b = false

/-- All members are equal: scalars and pointers by value, composite members member by member,
    arrays element by element; members of anonymous members count as members; unnamed bit-fields and
    arrays of unknown size are not compared. -/
def SameFields {S : Type} (neq : S → S → Bool) :
    Fields → (String → Option (Val S)) → (String → Option (Val S)) → Prop
  | .nil, _, _ => True
  | .field _ t n a rest, c, e =>
    (if a = 0 then True
     else if n = "" then Same neq t (.comp c) (.comp e)
     else ∃ v w, c n = some v ∧ e n = some w ∧
       if a > 0 then ∃ gc ge, v = .arr a.toNat gc ∧ w = .arr a.toNat ge ∧
         ∀ i, i < a.toNat → Same neq t (gc i) (ge i)
       else Same neq t v w) ∧
    SameFields neq rest c e
  | .bit _ _ n _ rest, c, e =>
    (n = "" ∨ ∃ a b, c n = some (.scalar a) ∧ e n = some (.scalar b) ∧ neq a b = false) ∧
    SameFields neq rest c e
end

/-! ## Values of a type -/

mutual
/-- The value has the shape the C type prescribes. -/
def Fits {S : Type} : Ty → Val S → Prop
  | .ref _ t, v => Fits t v
  | .const _ t, v => Fits t v
  | .tdef _ _ t, v => Fits t v
  | .comp _ _ _ fs _ _ _, v => ∃ g, v = .comp g ∧ FitsFields fs g
  | _, v => ∃ a, v = .scalar a

/-- The members have the shape the C type prescribes. Only a composite member that is not an array can
    be unnamed. -/
def FitsFields {S : Type} : Fields → (String → Option (Val S)) → Prop
  | .nil, _ => True
  | .field _ t n a rest, g =>
    (if a = 0 then True
     else if n = "" then holdsMembers t = true ∧ a < 0 ∧ Fits t (.comp g)
     else ∃ v, g n = some v ∧
       if a > 0 then ∃ ge, v = .arr a.toNat ge ∧ ∀ i, i < a.toNat → Fits t (ge i)
       else Fits t v) ∧
    FitsFields rest g
  | .bit _ _ n _ rest, g => (n = "" ∨ ∃ a, g n = some (.scalar a)) ∧ FitsFields rest g
end

/-! ## Differences -/

/-- The differences of the elements of an array, in order. -/
def diffsLoop {S : Type} (body : Nat → List (Report S)) (len : Nat) : List (Report S) :=
  (List.range len).flatMap body

/-- The difference of two scalars, if any. -/
def diffsScalar {S : Type} (neq : S → S → Bool) (param field : String) (idx : Option Nat) :
    Val S → Val S → List (Report S)
  | .scalar a, .scalar b => if neq a b then [{ param, field, idx, cur := a, exp := b }] else []
  | _, _ => []

mutual
/-- The differing leaves of two objects of a composite type, in comparison order: the members which
    are not arrays first, in declaration order, then the arrays; composite members recursively.
    `param` designates the object. -/
def diffs {S : Type} (neq : S → S → Bool) : Ty → Val S → Val S → String → List (Report S)
  | .ref _ t, v, w, p => diffs neq t v w p
  | .const _ t, v, w, p => diffs neq t v w p
  | .tdef _ _ t, v, w, p => diffs neq t v w p
  | .comp _ _ _ fs _ _ _, v, w, p =>
    diffsFields neq false fs v.member w.member p ++ diffsFields neq true fs v.member w.member p
  | _, _, _, _ => []

/-- The differing leaves below the members of an anonymous member. -/
def diffsAnonymous {S : Type} (neq : S → S → Bool) (arrays : Bool) :
    Ty → (String → Option (Val S)) → (String → Option (Val S)) → String → List (Report S)
  | .ref _ t, c, e, p => diffsAnonymous neq arrays t c e p
  | .const _ t, c, e, p => diffsAnonymous neq arrays t c e p
  | .tdef _ _ t, c, e, p => diffsAnonymous neq arrays t c e p
  | .comp _ _ _ fs _ _ _, c, e, p => diffsFields neq arrays fs c e p
  | _, _, _, _ => []

/-- The differing leaves below the array members (`arrays`) or below the other members. -/
def diffsFields {S : Type} (neq : S → S → Bool) (arrays : Bool) :
    Fields → (String → Option (Val S)) → (String → Option (Val S)) → String → List (Report S)
  | .nil, _, _, _ => []
  | .field _ t n a rest, c, e, p =>
    (if a = 0 then []
     else if n = "" then diffsAnonymous neq arrays t c e p
     else match c n, e n with
       | some v, some w =>
         if a > 0 then
           if arrays then
             match v, w with
             | .arr k gc, .arr _ ge =>
               diffsLoop (fun i => if holdsMembers t then diffs neq t (gc i) (ge i) (p ++ ("." ++ n))
                 else diffsScalar neq p n (some i) (gc i) (ge i)) k
             | _, _ => []
           else []
         else if arrays then []
         else if holdsMembers t then diffs neq t v w (p ++ ("." ++ n))
         else diffsScalar neq p n none v w
       | _, _ => []) ++
    diffsFields neq arrays rest c e p
  | .bit _ _ n _ rest, c, e, p =>
    (if n = "" ∨ arrays = true then []
     else match c n, e n with
       | some v, some w => diffsScalar neq p n none v w
       | _, _ => []) ++
    diffsFields neq arrays rest c e p
end

/-! ## Access paths -/

/-- A path: member names, each with the index when the member is an array. -/
abbrev Path := List (String × Option Nat)

/-- The value at the end of a path. -/
def Val.follow {S : Type} : Val S → Path → Option (Val S)
  | v, [] => some v
  | v, (f, none) :: rest => (v.member f).bind (fun u => u.follow rest)
  | v, (f, some i) :: rest =>
    match v.member f with
    | some (.arr len get) => if i < len then (get i).follow rest else none
    | _ => none

/-- How a path is written in an error message: the indexes are not. -/
def showPath (param : String) (path : Path) : String :=
  path.foldl (fun acc x => acc ++ ("." ++ x.1)) param

/-! ## Regular types -/

/-- The name of a composite type without typedef. -/
def tagName (env : Env) (t : Ty) : String :=
  keyword t ++ "_" ++ (if (attrs t).name = "" then anonymousName env t else (attrs t).name)

/-- Every typedef of the type gives one of the names which belong to its typee (to the type of the program which has the same
    hash). -/
def TypedefsNamed (env : Env) (PN : String → Ty → Prop) : Ty → Prop
  | .ptr _ t => TypedefsNamed env PN t
  | .ref _ t => TypedefsNamed env PN t
  | .const _ t => TypedefsNamed env PN t
  | .tdef _ n t =>
    (n ≠ "" → ∀ u, isComposable u = true → PN (tagName env u) u → env.key u = env.key t → PN n u) ∧ TypedefsNamed env PN t
  | _ => True

mutual
/-- The composite type and everything it contains by value is regular: complete, its names belong to it
    (`PN`), and its place of declaration (`prep`) gives the same prefix wherever it is
    met, described by `full`. -/
def Regular (env : Env) (PN : String → Ty → Prop) (full : String → String) (prep : String) :
    Ty → Prop
  | .ref _ t => Regular env PN full prep t
  | .const _ t => Regular env PN full prep t
  | .tdef _ _ t => Regular env PN full prep t
  | .comp i kw n fs emb fwd ms =>
    fwd = false ∧ PN (tagName env (.comp i kw n fs emb fwd ms)) (.comp i kw n fs emb fwd ms) ∧
    (∀ N, PN N (.comp i kw n fs emb fwd ms) →
      (if emb = true ∧ prep ≠ "_" then prep ++ N else N) = full N) ∧
    RegularFields env PN full prep fs
  | _ => True

/-- The same for an anonymous member. -/
def RegularAnonymous (env : Env) (PN : String → Ty → Prop) (full : String → String)
    (prep : String) : Ty → Prop
  | .ref _ t => RegularAnonymous env PN full prep t
  | .const _ t => RegularAnonymous env PN full prep t
  | .tdef _ _ t => RegularAnonymous env PN full prep t
  | .comp _ _ _ fs _ _ _ => RegularFields env PN full prep fs
  | _ => True

/-- The same for the members: no typedef stands for a pointer to a composite type, and no member has
    a type that is still being defined. -/
def RegularFields (env : Env) (PN : String → Ty → Prop) (full : String → String)
    (prep : String) : Fields → Prop
  | .nil => True
  | .field _ t n _ rest =>
    (TypedefsNamed env PN t ∧ comparedAsComposite t = holdsMembers t ∧
      (if n = "" then RegularAnonymous env PN full (prep ++ "_") t
       else Regular env PN full (prep ++ "_") t)) ∧
    RegularFields env PN full prep rest
  | .bit _ t _ _ rest => TypedefsNamed env PN t ∧ RegularFields env PN full prep rest
end

/-- The steps of a generation meet only regular types. -/
def RegularSteps (env : Env) (PN : String → Ty → Prop) (full : String → String) : List Step → Prop
  | [] => True
  | .typedef n u :: rest =>
    (n ≠ "" → ∀ v, isComposable v = true → PN (tagName env v) v → env.key v = env.key u → PN n v) ∧
    RegularSteps env PN full rest
  | .param t :: rest =>
    TypedefsNamed env PN t ∧
    (isComposable (rawType t) = true → Regular env PN full "" (rawType t)) ∧
    RegularSteps env PN full rest

/-- `PN N t`: the comparator of `t` may be named `N`; a name belongs to one type only, and
    different names stay different with their prefixes. -/
structure Naming (PN : String → Ty → Prop) (full : String → String) : Prop where
  one : ∀ N t u, PN N t → PN N u → t = u
  distinct : ∀ N M t u, PN N t → PN M u → full N = full M → N = M

/-! ## Plain types -/

/-- No typedef on the way to the raw type stands for (a pointer to) a composite type. -/
def NoCompositeTypedef : Ty → Prop
  | .ptr _ t => NoCompositeTypedef t
  | .ref _ t => NoCompositeTypedef t
  | .const _ t => NoCompositeTypedef t
  | .tdef _ _ t => isComposable (rawType t) = false ∧ (attrs (rawType t)).incomplete = false ∧
      NoCompositeTypedef t
  | _ => True

mutual
/-- A C type without typedefs of composite types and without types declared inside other types. -/
def Plain : Ty → Prop
  | .comp _ _ _ fs emb fwd _ => emb = false ∧ fwd = false ∧ PlainFields fs
  | .const _ t => isConst t = false ∧ Plain t
  | .tdef _ _ t => isComposable (rawType t) = false ∧ (attrs (rawType t)).incomplete = false ∧
      NoCompositeTypedef t
  | .ptr _ t => NoCompositeTypedef t
  | .ref .. => False
  | .incomplete .. => False
  | _ => True

/-- All members are plain. -/
def PlainFields : Fields → Prop
  | .nil => True
  | .field _ t _ _ rest => Plain t ∧ PlainFields rest
  | .bit _ t _ _ rest => NoCompositeTypedef t ∧ PlainFields rest
end

mutual
/-- The composite types which an object of this type contains, itself included. -/
def parts : Ty → List Ty
  | .ref _ t => parts t
  | .const _ t => parts t
  | .tdef _ _ t => parts t
  | .comp i kw n fs emb fwd ms => .comp i kw n fs emb fwd ms :: partsFields fs
  | _ => []

/-- The composite types which the members contain. -/
def partsFields : Fields → List Ty
  | .nil => []
  | .field _ t _ _ rest => parts t ++ partsFields rest
  | .bit _ _ _ _ rest => partsFields rest
end

end EasyMock.StructCmp
