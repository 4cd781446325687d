import Verif.Types.Model

/-!
# StructCmp: the comparators generated for structs, unions and classes

Model of the part of `CodeGeneratorCTemplate.cpp` (cited as GEN) which generates the functions
`cmp_<type>`: the generator (typedef registry, comparator names, one comparator per name, one check
per field) and the meaning of the generated C code.

Simplifications.
* The generated code is represented by its syntax (`Comparator`, `Check`) instead of text; the declaration of an
  anonymous type inside its comparator (GEN:2287-2291) is made from the type of the comparator (`CFile.localText`).
* `TypeItf::unqualify` removes one qualifier; its non-termination on a qualifier nested in a qualifier is
  the subject of C41 and not modelled again here.
* The hash of a type, used as registry key and in the names of anonymous types, is a parameter.
* Bit-fields have an integer or enum type (C requires it), so no comparator is generated for them.
* A C value is a tree of scalars; members of anonymous members are found under their own name,
  as in C; a reference is identified with the object it refers to.
-/

namespace EasyMock.StructCmp

open EasyMock.Types

/-- `easyMock_printfFormat`, EasyMockGenerateTypes.cpp:29-49. -/
def printfFormat : CT → String
  | .char => "c" | .uchar => "c" | .schar => "c" | .short => "hi" | .ushort => "hu" | .int => "d"
  | .uint => "u" | .long => "li" | .ulong => "lu" | .longLong => "lli" | .ulongLong => "llu"
  | .float => "f" | .double => "lf" | .longDouble => "Lf" | .int128 => "lf%lf"
  | .uint128 => "Lf%Lf" | .void => "voidInvalidPrintfFormat" | .invalid => "invalidPrintfFormat"

/-- What does not change during one generation: the hash of types and the requested comparators
    (`m_comparatorList`). -/
structure Env where
  key : Ty → Nat
  comparators : List String

/-- `m_typeToTypedef` (typee hash, typedef name; CodeGeneratorCTemplate.h:113) and
    `m_generatedComparator` (109). -/
structure St where
  reg : List (Nat × String) := []
  done : List String := []

/-! ## Names -/

/-- `registerTypeDef` on a typedef, GEN:1120-1131: the first typedef of a type wins. -/
def register (env : Env) (reg : List (Nat × String)) (name : String) (typee : Ty) :
    List (Nat × String) :=
  if reg.any (fun e => e.1 == env.key typee) then reg else reg ++ [(env.key typee, name)]

/-- The registrations made by `getRawType`, GEN:1084-1118. -/
def registerRaw (env : Env) (reg : List (Nat × String)) : Ty → List (Nat × String)
  | .ptr _ t => registerRaw env reg t
  | .ref _ t => registerRaw env reg t
  | .const _ t => registerRaw env reg t
  | .tdef _ n t => registerRaw env (register env reg n t) t
  | _ => reg

/-- The registrations made by `getMostDefinedType`, GEN:1060-1082. -/
def registerDefined (env : Env) (reg : List (Nat × String)) : Ty → List (Nat × String)
  | .const _ t => registerDefined env reg t
  | .tdef _ n t => registerDefined env (register env reg n t) t
  | _ => reg

/-- `getTypeDefName`, GEN:1133-1142. -/
def typedefName (env : Env) (reg : List (Nat × String)) (t : Ty) : String :=
  match reg.find? (fun e => e.1 == env.key t) with
  | some e => e.2
  | none => ""

/-- `getAnonymousName`, GEN:966-970. -/
def anonymousName (env : Env) (t : Ty) : String :=
  "easymock_generated_anonymous_type_hash_" ++ toString (env.key t)

/-- The keyword of a composable or incomplete type. -/
def keyword : Ty → String
  | .comp _ kw _ _ _ _ _ => kw.str
  | .incomplete _ kw _ => kw.str
  | _ => ""

/-- `getComparatorName`, GEN:1155-1184 (`getAnonymousTypedefUniqueName`, 1186-1194, is only reached
    without a typedef). -/
def comparatorName (env : Env) (reg : List (Nat × String)) (t : Ty) : String :=
  if (typedefName env reg t).isEmpty then
    keyword t ++ "_" ++ (if (attrs t).name.isEmpty then anonymousName env t else (attrs t).name)
  else typedefName env reg t

/-- `getMostDefinedName`, GEN:1144-1153. -/
def mostDefinedName (env : Env) (reg : List (Nat × String)) (t : Ty) : String :=
  if (typedefName env reg t).isEmpty then (attrs t).name else typedefName env reg t

/-- `declarationString`, GEN:2306-2319. -/
def declText (env : Env) (reg : List (Nat × String)) (t : Ty) : String :=
  if (typedefName env reg t).isEmpty then
    if isAnonymous t then keyword t ++ " " ++ anonymousName env t else fullName t
  else typedefName env reg t

/-- `toFind.find(keyword) == 0` followed by the replacement, GEN:2253-2258. -/
def stripPrefix (kw s : String) : String :=
  if kw.toList.isPrefixOf s.toList then String.ofList (s.toList.drop kw.toList.length) else s

/-- Whether the comparator of this name must be generated, GEN:2250-2265. -/
def requested (env : Env) (uniqueName : String) : Bool :=
  env.comparators.contains "EasyMock_all_comparators" ||
  env.comparators.contains (stripPrefix "union_" (stripPrefix "struct_" uniqueName))

/-! ## Generated code -/

/-- The condition of one check: `currentCall_val->f != expectedCall_val->f` together with the
    texts of its error message, or a call of another comparator. -/
inductive Action where
  | neq (owner : String) (format : Option String) (cast : Option String)
  | call (comparator : String)
  deriving DecidableEq, Repr

/-- One `if` of a comparator (GEN:520-532), or one loop (534-549) when `array`. -/
structure Check where
  field : String
  array : Bool
  action : Action
  deriving DecidableEq, Repr

deriving instance DecidableEq for Ty, Fields, Params, Methods

/-- A generated function `cmp_<name>` (GEN:503-552) and its companion `cmp_deref_ptr_<name>`
    (553-559); `article` is `COMPOSED_TYPE_VAR`, `decl` is `COMPOSED_TYPED_DECL_STRING` without `const`: the
    type as which the arguments are looked at; `ty` is the type for which it is generated, GEN:2245-2246. -/
structure Comparator where
  name : String
  article : String
  checks : List Check
  decl : String
  ty : Ty
  deriving DecidableEq

/-! ## Generator -/

/-- `TypeItf::unqualify` on types without nested qualifiers. -/
def unqualified : Ty → Ty
  | .const _ t => t
  | t => t

/-- Whether `generateBodyStructCompare` treats the field as an object with members,
    GEN:1773-1780. -/
def comparedAsComposite (t : Ty) : Bool :=
  !isPointer (unqualified t) && (isComposable (rawType t) || (attrs (rawType t)).incomplete)

/-- `hasTypeNonZeroSize`, GEN:1048-1058. -/
def nonZeroSize (t : Ty) : Bool :=
  match untypedef t with
  | .comp _ _ _ .nil _ _ _ => false
  | _ => true

/-- `setStructCompareStringFormat`, GEN:1866-1887; `none` = "unexpected here". -/
def formatOf (t : Ty) : Option String :=
  if isPointer (unqualified (untypedef t)) || (attrs (untypedef t)).incomplete
      || isFunctionType (untypedef t) then some "p"
  else if isEnum (untypedef t) then some "d"
  else match untypedef t with
    | .ctype c _ _ => some (printfFormat c)
    | _ => none

/-- `isDeclarationEmbeddedInOtherType` of a composable type. -/
def embedded : Ty → Bool
  | .comp _ _ _ _ emb _ _ => emb
  | _ => false

/-- The type named in error messages, GEN:1913-1932. -/
def ownerText (env : Env) (reg : List (Nat × String)) (owner : Ty) (decl : String) : String :=
  if !embedded owner then mostDefinedName env reg owner
  else decl ++ (if (attrs owner).name.isEmpty then "<anonymous>" else "")

/-- `COMPOSED_TYPE_VAR`, GEN:2293-2304. -/
def article (kw : Kw) : String :=
  match kw.firstChar with
  | 'a' | 'e' | 'i' | 'o' | 'u' => "n " ++ kw.str
  | _ => " " ++ kw.str

/-- The prefix of the path shown for members of an anonymous member, GEN:1788-1793. -/
def anonymousDecl (decl : String) : String :=
  (if decl.toList.getLast? == some ':' then decl ++ "<anonymous>" else decl) ++ "::"

/-- The name under which the comparator of a member is called, GEN:1814-1828. -/
def calledName (env : Env) (reg : List (Nat × String)) (prep : String) (raw : Ty) : String :=
  if embedded raw && !prep.isEmpty then prep ++ "_" ++ comparatorName env reg raw
  else comparatorName env reg raw

/-- The name under which a comparator is generated, GEN:2274-2280. -/
def generatedName (emb : Bool) (prep unique : String) : String :=
  if emb && prep != "_" then prep ++ unique else unique

mutual
/-- `generateComposedTypedCompareSection` on the raw type of its argument, GEN:2243-2327: the new
    state and the comparators added, in order of output. -/
def genSection (env : Env) (prep decl : String) (σ : St) : Ty → St × List Comparator
  | .ptr _ t => genSection env prep decl σ t
  | .ref _ t => genSection env prep decl σ t
  | .const _ t => genSection env prep decl σ t
  | .tdef _ _ t => genSection env prep decl σ t
  | .comp i kw n fs emb fwd ms =>
    let self := Ty.comp i kw n fs emb fwd ms
    let unique := comparatorName env σ.reg self
    if fwd || !requested env unique || σ.done.contains unique then (σ, [])
    else
      let r := genFields env self prep (decl ++ mostDefinedName env σ.reg self)
        { σ with done := σ.done ++ [unique] } fs
      (r.1, { name := generatedName emb prep unique, article := article kw, checks := r.2.1,
               decl := declText env σ.reg self, ty := self }
        :: r.2.2)
  | _ => (σ, [])

/-- `generateAllFieldStructCompare` for an anonymous member, whose checks are added to the
    comparator of the enclosing type, GEN:1784-1796. -/
def genAnonymous (env : Env) (prep decl : String) (σ : St) : Ty → St × List Check × List Comparator
  | .ptr _ t => genAnonymous env prep decl σ t
  | .ref _ t => genAnonymous env prep decl σ t
  | .const _ t => genAnonymous env prep decl σ t
  | .tdef _ _ t => genAnonymous env prep decl σ t
  | .comp i kw n fs emb fwd ms => genFields env (.comp i kw n fs emb fwd ms) prep decl σ fs
  | _ => (σ, [], [])

/-- `generateAllFieldStructCompare`, GEN:2329-2370, with `generateBodyStructCompare`, 1759-1864,
    and `generateBasicTypeField`, 1889-1945: state, checks of this comparator, new comparators. -/
def genFields (env : Env) (owner : Ty) (prep decl : String) (σ : St) :
    Fields → St × List Check × List Comparator
  | .nil => (σ, [], [])
  | .field _ t n a rest =>
    let σ₁ : St := if a > 0 then { σ with reg := registerDefined env σ.reg t } else σ
    let r : St × List Check × List Comparator :=
      if a == 0 || (a > 0 && !nonZeroSize t) then (σ₁, [], [])
      else
        let σ₂ : St := { σ₁ with reg := registerRaw env σ₁.reg t }
        if comparedAsComposite t then
          if n.isEmpty then genAnonymous env (prep ++ "_") (anonymousDecl decl) σ₂ t
          else
            let s := genSection env (prep ++ "_") (decl ++ "::") σ₂ t
            (s.1, [{ field := n, array := a > 0,
                     action := .call (calledName env σ₂.reg prep (rawType t)) }], s.2)
        else (σ₂, [{ field := n, array := a > 0,
                     action := .neq (ownerText env σ₂.reg owner decl) (formatOf t) none }], [])
    let r' := genFields env owner prep decl r.1 rest
    (r'.1, r.2.1 ++ r'.2.1, r.2.2 ++ r'.2.2)
  | .bit _ t n _ rest =>
    let r : St × List Check :=
      if n.isEmpty then (σ, [])
      else
        let σ₂ : St := { σ with reg := registerRaw env σ.reg t }
        (σ₂, [{ field := n, array := false,
                action := .neq (ownerText env σ₂.reg owner decl) (formatOf t)
                  (some (fullName t)) }])
    let r' := genFields env owner prep decl r.1 rest
    (r'.1, r.2 ++ r'.2.1, r'.2.2)
end

/-- What the generator does with typedefs and parameter types, in any order: registration of the
    typedefs of a type (`getRawType`, `registerTypeDef`, `getMostDefinedType` are called in many
    places), or the comparator of a parameter type, GEN:1578-1587. -/
inductive Step where
  | typedef (name : String) (typee : Ty)
  | param (t : Ty)

/-- One step. -/
def genStep (env : Env) (σ : St) : Step → St × List Comparator
  | .typedef n u => ({ σ with reg := register env σ.reg n u }, [])
  | .param t =>
    let σ₁ : St := { σ with reg := registerRaw env σ.reg t }
    if isComposable (rawType t) && !isImplicit (rawType t) then genSection env "" "" σ₁ t
    else (σ₁, [])

/-- A whole generation; the registries are empty at the start, GEN:1224-1225. -/
def genSteps (env : Env) (σ : St) : List Step → St × List Comparator
  | [] => (σ, [])
  | s :: rest =>
    let r := genStep env σ s
    let r' := genSteps env r.1 rest
    (r'.1, r.2 ++ r'.2)

/-! ## Meaning of the generated code -/

/-- C values; `S` are the scalars (numbers, addresses). -/
inductive Val (S : Type) where
  | scalar (s : S)
  | arr (len : Nat) (get : Nat → Val S)
  | comp (get : String → Option (Val S))

/-- The member `f`, also when it belongs to an anonymous member. -/
def Val.member {S : Type} : Val S → String → Option (Val S)
  | .comp get, f => get f
  | _, _ => none

/-- What an error message designates: the parameter text, the field, the index, both values. -/
structure Report (S : Type) where
  param : String
  field : String
  idx : Option Nat
  cur : S
  exp : S

/-- Result of calling a comparator: 0; -1 with a message (its article, owner and format, and what it
    designates); a comparator that is called but not generated (the program does not link); an object
    used as one of another type (undefined behaviour or a compilation error); or the call
    has not finished within the given depth. -/
inductive Out (S : Type) where
  | equal
  | diff (article owner : String) (format : Option String) (report : Report S)
  | unlinked (name : String)
  | confused
  | unfinished

/-- `currentCall_val->f != expectedCall_val->f`. -/
def evalNeq {S : Type} (neq : S → S → Bool) (article owner : String) (format : Option String)
    (param field : String) (idx : Option Nat) : Val S → Val S → Out S
  | .scalar c, .scalar e =>
    if neq c e then .diff article owner format { param, field, idx, cur := c, exp := e } else .equal
  | _, _ => .confused

/-- The loop over the elements of an array, GEN:534-549: the first result which is not 0. -/
def evalLoop {S : Type} (body : Nat → Out S) : (idx left : Nat) → Out S
  | _, 0 => .equal
  | idx, left + 1 =>
    match body idx with
    | .equal => evalLoop body (idx + 1) left
    | o => o

/-- One condition, on the value of the field or of the array element; `callee` runs a comparator. -/
def evalAction {S : Type} (neq : S → S → Bool) (callee : String → Val S → Val S → String → Out S)
    (article param field : String) (idx : Option Nat) (c e : Val S) : Action → Out S
  | .neq owner format _ => evalNeq neq article owner format param field idx c e
  | .call name => callee name c e (param ++ ("." ++ field))

/-- One check of a comparator. -/
def evalCheck {S : Type} (neq : S → S → Bool) (callee : String → Val S → Val S → String → Out S)
    (article param : String) (c e : Val S) (k : Check) : Out S :=
  match c.member k.field, e.member k.field with
  | some vc, some ve =>
    if k.array then
      match vc, ve with
      | .arr len gc, .arr _ ge =>
        evalLoop (fun i => evalAction neq callee article param k.field (some i) (gc i) (ge i)
          k.action) 0 len
      | _, _ => .confused
    else evalAction neq callee article param k.field none vc ve k.action
  | _, _ => .confused

/-- A sequence of checks: the first result which is not 0. -/
def evalChecks {S : Type} (neq : S → S → Bool) (callee : String → Val S → Val S → String → Out S)
    (article param : String) (c e : Val S) : List Check → Out S
  | [] => .equal
  | k :: rest =>
    match evalCheck neq callee article param c e k with
    | .equal => evalChecks neq callee article param c e rest
    | o => o

/-- Call of `cmp_<name>` in the generated program: the checks of the fields which are not arrays
    come first (template order, GEN:520-549). -/
def run {S : Type} (prog : List Comparator) (neq : S → S → Bool) :
    (depth : Nat) → String → Val S → Val S → String → Out S
  | 0, _, _, _, _ => .unfinished
  | depth + 1, name, c, e, param =>
    match prog.find? (fun k => k.name == name) with
    | none => .unlinked name
    | some k =>
      evalChecks neq (run prog neq depth) k.article param c e
        (k.checks.filter (fun x => !x.array) ++ k.checks.filter (fun x => x.array))

/-- The text of an error message, GEN:528 and 544; `shown` is the value printed with the format. -/
def message {S : Type} (shown : Option String → S → String) (article owner : String)
    (format : Option String) (r : Report S) : String :=
  match r.idx with
  | none => "Parameter '" ++ r.param ++ "' which is a" ++ article ++ " of type '" ++ owner ++
      "' has field '" ++ r.field ++ "' with value '" ++ shown format r.cur ++
      "', was expecting '" ++ shown format r.exp ++ "'"
  | some i => "Parameter '" ++ r.param ++ "' which is a" ++ article ++ " of type '" ++ owner ++
      "' has field array '" ++ r.field ++ "[idx]' at idx == " ++ toString i ++ " with value '" ++
      shown format r.cur ++ "', was expecting '" ++ shown format r.exp ++ "'"

end EasyMock.StructCmp
