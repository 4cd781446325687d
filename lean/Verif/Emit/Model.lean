import Verif.Types.Model

/-!
# Emit: the declarations of the used types (`--generate-types`)

Model of `generateDeclarationOfUsedType` and of the functions it calls, GEN = `src/easyMockGenerate/src/
CTemplateGenerator/CodeGeneratorCTemplate.cpp` 966-1025, 1084-1178, 1367-1370, 1398-1674 (the calls which
concern types), 1947-2241, 2472-2583, and of the part of the header template which prints the types, GEN:137-169
and 838-889.

Simplifications.
* C mode: no methods, and every call is made with the root dictionary as parent (GEN:2001 is then true).
* No comparators are requested (`generateComposedTypedCompareSection` returns at once, GEN:2262-2265).
* The hash of a type is a parameter: `hash` is `Types.hash h` for any arithmetic `h`; `anon` is
  `getAnonymousName` (GEN:966-970).  Sets compare hashes only (EasyMock_Hashable.h:86-99).
* The pointer to the local variable `copyEnum` (GEN:2548-2556) which stays in `m_generatedTypeEnumSection` is
  represented by a flag `dangling`, and its hash by the hash the object had.  `late` is the vector iterated by
  GEN:1367; pushing to it during the iteration sets `invalidated`.
-/

namespace EasyMock.Emit

open EasyMock.Types

/-- Text of a size, GEN:2191-2193 and 2209-2218. -/
def boundText (a : Int) : String := if a = -1 then "" else "[" ++ toString a ++ "]"

mutual
/-- A dictionary of `composableType_DeclareComposableType_template`, GEN:921-933: keyword, name (empty when not
    set), and the members of the body when there is one. -/
inductive Decl where
  | mk (kw : Kw) (name : String) (body : Bool) (members : Members)

/-- The members of a body, GEN:935-939: a declarator with the text in front of the name, or a composite type declared or
    mentioned in place. The name includes array bounds and bit widths. -/
inductive Members where
  | nil
  | plain (decl : String) (ty : Ty) (name : String) (rest : Members)
  | sub (d : Decl) (name : String) (rest : Members)
end

/-- A section of the header, in `GENERATED_TYPE_SECTION`: the type it is made for, the name in its guard and
    the declaration. -/
structure Comp where
  ty : Ty
  guard : String
  decl : Decl

/-- The members of `CodeGeneratorCTemplate` and the dictionaries made so far. -/
structure St (H : Type) where
  /-- `m_generateTypes` -/
  gen : List H := []
  /-- `m_generateForwardTypes` -/
  fwdSet : List H := []
  /-- `m_generatedTypeTypedDefSection` -/
  tdSet : List H := []
  /-- `m_generatedTypeEnumSection` -/
  enSet : List H := []
  /-- `m_typeToTypedef` -/
  reg : List (H × String) := []
  /-- `m_lateDeclaration` -/
  late : List Ty := []
  /-- `GENERATED_TYPE_FORWARD_DECLARATION_SECTION` -/
  fwds : List (Kw × String) := []
  /-- `GENERATED_TYPE_SIMPLE_TYPEDEF_SECTION`: name and typee -/
  tds : List (String × Ty) := []
  /-- `GENERATED_TYPE_ENUM_SECTION` -/
  ens : List (String × List (Nat × String)) := []
  /-- `GENERATED_TYPE_SECTION` -/
  comps : List Comp := []
  dangling : Bool := false
  invalidated : Bool := false

/-- The two parameters of the model. -/
structure Env (H : Type) where
  hash : Ty → H
  anon : Ty → String

variable {H : Type} [DecidableEq H] (e : Env H)

/-- `TypeItf::unqualify`, TypeItf.cpp:121-129, on types without nested qualifiers. -/
def unqualified : Ty → Ty
  | .const _ t => t
  | t => t

/-- `isComposableTypeComplete`, GEN:1009-1025. -/
def isComplete : Fields → Bool
  | .nil => true
  | .field _ t _ _ rest => !(attrs (unqualified t)).incomplete && isComplete rest
  | .bit _ t _ _ rest => !(attrs (unqualified t)).incomplete && isComplete rest

/-- `registerTypeDef` on a typedef, GEN:1121-1132. -/
def register (n : String) (t : Ty) (s : St H) : St H :=
  if s.reg.any (fun x => x.1 == e.hash t) then s else { s with reg := s.reg ++ [(e.hash t, n)] }

/-- The registrations made by `getRawType`, GEN:1084-1119. -/
def registerRaw : Ty → St H → St H
  | .ptr _ t, s => registerRaw t s
  | .ref _ t, s => registerRaw t s
  | .const _ t, s => registerRaw t s
  | .tdef _ n t, s => registerRaw t (register e n t s)
  | _, s => s

/-- `getAnonymousTypedefUniqueName`, GEN:1186-1194, with `getTypeDefName`, GEN:1134-1143. -/
def anonymousName (t : Ty) (s : St H) : String :=
  match s.reg.find? (fun x => x.1 == e.hash t) with
  | some x => if x.2.isEmpty then e.anon t else x.2
  | none => e.anon t

/-- `generateForwardDeclaration`, GEN:2077-2117. -/
def forward (t : Ty) (s : St H) : St H :=
  if (attrs t).name.isEmpty then s
  else if s.fwdSet.contains (e.hash t) then s
  else
    match t with
    | .incomplete _ k n => { s with fwdSet := e.hash t :: s.fwdSet, fwds := s.fwds ++ [(k, n)] }
    | .comp _ k n _ _ _ _ => { s with fwdSet := e.hash t :: s.fwdSet, fwds := s.fwds ++ [(k, n)] }
    | _ => { s with fwdSet := e.hash t :: s.fwdSet }

/-- `generateEnum`, GEN:2541-2583. -/
def enumOut (t : Ty) (s : St H) : St H :=
  match t with
  | .enum i n vs =>
    let u : Ty := if vs.isEmpty then .enum false n [(0, n ++ "_dummy")] else .enum i n vs
    if s.enSet.contains (e.hash u) then s
    else { s with
      enSet := e.hash u :: s.enSet,
      ens := s.ens ++ [(if n.isEmpty then e.anon u else n, if vs.isEmpty then [(0, n ++ "_dummy")] else vs)],
      dangling := s.dangling || vs.isEmpty }
  | _ => s

/-- `generateSimpleTypeDef` on a typedef which is not in the set, up to the call for a function type,
    GEN:2505-2526. -/
def addTypedef (i : Bool) (n : String) (t : Ty) (s : St H) : St H :=
  registerRaw e t { s with tdSet := e.hash (.tdef i n t) :: s.tdSet, tds := s.tds ++ [(n, t)] }

/-- `getDeclaratorString`, GEN:2437-2470: the text in front of the name of a member declared with the text `s` and the type `t`. -/
def declarator (s : String) (t : Ty) : String :=
  declareString s t ++ (if isAnonymous (rawType t) && !containsTypeDef t then " " ++ e.anon (rawType t) else "")

/-- The name of a composite type in the text, GEN:2138-2146. -/
def tag (t : Ty) : String := if (attrs t).name.isEmpty then e.anon t else (attrs t).name

/-- The value in the guard of a composite type, GEN:2027-2035. -/
def compGuard (kw : Kw) (t : Ty) (s : St H) : String :=
  kw.str ++ (if (attrs t).name.isEmpty then anonymousName e t s else (attrs t).name)

/-- Dictionary of a composite type inside a body, GEN:2119-2154 with `p_nbLevelToGenerate` 1 for an anonymous type
    and 0 otherwise: an anonymous type has a body and no name; another one has a name, and a body only if it has
    not been generated. -/
def subDecl (kw : Kw) (t : Ty) (ms : Members) (s : St H) : Decl :=
  if (attrs t).name.isEmpty then .mk kw "" true ms
  else if s.gen.contains (e.hash t) then .mk kw (attrs t).name false .nil
  else .mk kw (attrs t).name true ms

mutual
/-- `generateDeclarationOfUsedType`, GEN:1947-2075; `inc` is `p_generateIncomplete`. -/
def used (inc : Bool) : Ty → St H → St H
  | .incomplete f k n, s => forward e (.incomplete f k n) s
  | .comp i kw n fs emb fwd ms, s =>
    let t : Ty := .comp i kw n fs emb fwd ms
    if s.gen.contains (e.hash t) then s
    else if isComplete fs || inc then
      let s1 := forward e t { s with gen := e.hash t :: s.gen }
      if fwd then s1
      else
        let s2 := usedFields fs s1
        let r := members fs s2
        { r.2 with comps := s2.comps ++ [⟨t, compGuard e kw t s2, .mk kw (tag e t) true r.1⟩] ++
            r.2.comps.drop s2.comps.length }
    else { s with late := s.late ++ [t] }
  | .tdef i n t, s =>
    if s.gen.contains (e.hash (.tdef i n t)) then s
    else
      let s1 := { s with gen := e.hash (.tdef i n t) :: s.gen }
      used false t (if s1.tdSet.contains (e.hash (.tdef i n t)) then s1 else rawFn t (addTypedef e i n t s1))
  | .enum i n vs, s =>
    if s.gen.contains (e.hash (.enum i n vs)) then s
    else enumOut e (.enum i n vs) { s with gen := e.hash (.enum i n vs) :: s.gen }
  | .const _ t, s => used false t s
  | .ptr _ t, s => used false t s
  | .fn _ _ _ r ps, s => usedParams ps (used false r s)
  | .ref i t, s =>
    if s.gen.contains (e.hash (.ref i t)) then s else { s with gen := e.hash (.ref i t) :: s.gen }
  | .ctype c k i, s =>
    if s.gen.contains (e.hash (.ctype c k i)) then s else { s with gen := e.hash (.ctype c k i) :: s.gen }

/-- The loop over the fields, GEN:1993-2022: bit-fields are skipped. -/
def usedFields : Fields → St H → St H
  | .nil, s => s
  | .field _ t _ _ rest, s => usedFields rest (used false t s)
  | .bit _ _ _ _ rest, s => usedFields rest s

/-- The loop over the parameters, GEN:2066-2069. -/
def usedParams : Params → St H → St H
  | .nil, s => s
  | .cons _ t _ rest, s => usedParams rest (used false t s)

/-- The body of `generateDeclarationOfComposableType`, GEN:2159-2232. -/
def members : Fields → St H → Members × St H
  | .nil, s => (.nil, s)
  | .field d t n a rest, s =>
    match t with
    | .comp i kw m fs emb fwd ms =>
      let u : Ty := .comp i kw m fs emb fwd ms
      let b := if !m.isEmpty && s.gen.contains (e.hash u) then (.nil, s) else members fs s
      let r := members rest b.2
      (.sub (subDecl e kw u b.1 s) (if n.isEmpty then n else n ++ boundText a) r.1, r.2)
    | t =>
      let r := members rest (enumOut e t (fieldFn true false t (tdPtr t (registerRaw e t s))))
      (.plain (declarator e d t) t (n ++ boundText a) r.1, r.2)
  | .bit d t n k rest, s =>
    match t with
    | .comp i kw m fs emb fwd ms =>
      let u : Ty := .comp i kw m fs emb fwd ms
      let b := if !m.isEmpty && s.gen.contains (e.hash u) then (.nil, s) else members fs s
      let r := members rest b.2
      (.sub (subDecl e kw u b.1 s) n r.1, r.2)
    | t =>
      let r := members rest (enumOut e t (fieldFn true false t (tdPtr t (registerRaw e t s))))
      (.plain (declarator e d t) t (n ++ ":" ++ toString k) r.1, r.2)

/-- `generateSimpleTypeDef(getMostPointedType(type))`, GEN:2208 with 2482-2539. -/
def tdPtr : Ty → St H → St H
  | .ptr _ t, s => tdPtr t s
  | .tdef i n t, s =>
    if s.tdSet.contains (e.hash (.tdef i n t)) then s else rawFn t (addTypedef e i n t s)
  | _, s => s

/-- `generateDeclarationOfUsedType(m_rootDictionary, functionType, false)` if the raw type is a function,
    GEN:2512-2528. -/
def rawFn : Ty → St H → St H
  | .ptr _ t, s => rawFn t s
  | .ref _ t, s => rawFn t s
  | .const _ t, s => rawFn t s
  | .tdef _ _ t, s => rawFn t s
  | .fn _ _ _ r ps, s => usedParams ps (used false r s)
  | _, s => s

/-- For a pointer to a function (`unqualify()->asPointer()`, then `getRawType`): the used types if `pre`, then
    `generateExtraDecl`, GEN:2219-2228, 1538-1560 and 1603-1613. `below` says whether a pointer has been passed. -/
def fieldFn : Bool → Bool → Ty → St H → St H
  | pre, _, .ptr _ t, s => fieldFn pre true t s
  | pre, below, .const _ t, s => fieldFn pre below t s
  | pre, true, .ref _ t, s => fieldFn pre true t s
  | pre, true, .tdef _ n t, s => fieldFn pre true t (register e n t s)
  | pre, true, .fn _ _ _ r ps, s =>
    let s1 := if pre then usedParams ps (used false r s) else s
    let s2 := usedParams ps (used false r s1)
    fieldFn false false r (extraParams ps s2)
  | _, _, _, s => s

/-- `generateFunctionParamSection` for the parameters of a pointed function, GEN:1570-1613. -/
def extraParams : Params → St H → St H
  | .nil, s => s
  | .cons _ t _ rest, s => extraParams rest (fieldFn true false t (registerRaw e t (used false t s)))
end

/-- The part of `generateFunctionSection` which concerns types, GEN:1475-1527, for a function which is not a
    member of a class. -/
def usedFun (f : FunDecl) (s : St H) : St H :=
  let s1 := used e false f.ret (registerRaw e f.ret s)
  extraParams e f.params (fieldFn e true false f.ret (fieldFn e true false f.ret s1))

/-- The loop over the late declarations, GEN:1367-1370: the vector of the moment when the loop starts. -/
def lateLoop : List Ty → St H → St H
  | [], s => s
  | t :: ts, s =>
    let s1 := used e true t s
    lateLoop ts { s1 with invalidated := s1.invalidated || decide (s.late.length < s1.late.length) }

/-- `fillInTemplateVariables` for the selected functions, GEN:1312-1370. -/
def emit (fs : List FunDecl) : St H :=
  let s := fs.foldl (fun s f => usedFun e f s) {}
  lateLoop e s.late s

/-! ## The text -/

/-- A declaration of the header, with its guard. -/
inductive Item where
  | fwd (kw : Kw) (name : String)
  | td (name : String) (typee : Ty)
  | en (name : String) (values : List (Nat × String))
  | comp (guard : String) (decl : Decl)

/-- The macro which guards a declaration, GEN:137-169. -/
def Item.macro : Item → String
  | .fwd kw n => "EASYMOCK_" ++ kw.str ++ "_" ++ n ++ "_FORWARD_GENERATED"
  | .td n _ => "EASYMOCK_" ++ n ++ "_GENERATED"
  | .en n _ => "EASYMOCK_" ++ n ++ "_GENERATED"
  | .comp g _ => "EASYMOCK_" ++ g ++ "_GENERATED"

/-- The type part of the header in the order of the template, GEN:853-887. -/
def items (s : St H) : List Item :=
  s.fwds.map (fun x => .fwd x.1 x.2) ++ s.tds.map (fun x => .td x.1 x.2) ++
  s.ens.map (fun x => .en x.1 x.2) ++ s.comps.map (fun x => .comp x.guard x.decl)

end EasyMock.Emit
