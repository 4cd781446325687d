/-!
# Types: the generator's representation of C and C++ types

Model of the type classes of `src/easyMockGenerate/{include,src}`: equality (`isEqual`), hashing
(`getHash`, `getRawHash`), declaration strings and the functions which strip pointers, references,
qualifiers and typedefs.

Simplifications.
* An object graph is a finite tree.  The parser breaks recursive types with `IncompleteType`
  (LLVMParser.cpp) so the tree is finite; the `weak_ptr` from a method to its class is
  represented by the only datum which is read through it while comparing types: the class name.
* Pointers to types are never null (`Declarator` tolerates a null type only in `isEqual`).
* `QualifiedType` itself is never instantiated, only `ConstQualifiedType` is.
* The hash arithmetic of boost is a parameter (`Hasher`); hash caches are in `Verif.Types.Cache`.
-/

namespace EasyMock.Types

/-- `easyMock_cTypes_t`, include/EasyMockGenerateTypes.h:10-84. -/
inductive CT where
  | char | uchar | schar | short | ushort | int | uint | long | ulong | longLong | ulongLong
  | float | double | longDouble | int128 | uint128 | void | invalid
  deriving DecidableEq, Repr

/-- The numeric value of the enumerator, include/EasyMockGenerateTypes.h:10-84. -/
def CT.idx : CT → Nat
  | .char => 0 | .uchar => 1 | .schar => 2 | .short => 3 | .ushort => 4 | .int => 5 | .uint => 6
  | .long => 7 | .ulong => 8 | .longLong => 9 | .ulongLong => 10 | .float => 11 | .double => 12
  | .longDouble => 13 | .int128 => 14 | .uint128 => 15 | .void => 16 | .invalid => 17

/-- `easyMock_arrayCTypeStr`, EasyMockGenerateTypes.cpp:5-25. -/
def CT.str : CT → String
  | .char => "char" | .uchar => "unsigned char" | .schar => "signed char" | .short => "short"
  | .ushort => "unsigned short" | .int => "int" | .uint => "unsigned int" | .long => "long"
  | .ulong => "unsigned long" | .longLong => "long long" | .ulongLong => "unsigned long long"
  | .float => "float" | .double => "double" | .longDouble => "long double"
  | .int128 => "__int128" | .uint128 => "unsigned __int128" | .void => "void"
  | .invalid => "invalid"

/-- The class of a composable type: `StructType`, `UnionType` or `ClassType`
    (also `IncompleteType::Type`, include/IncompleteType.h). -/
inductive Kw where
  | struct | union | cls
  deriving DecidableEq, Repr

/-- `getComposableTypeKeyword` of StructType.cpp, UnionType.cpp, ClassType.cpp and
    IncompleteType.cpp:20-32. -/
def Kw.str : Kw → String
  | .struct => "struct" | .union => "union" | .cls => "class"

/-- `*getComposableTypeKeyword()`: the first character of the keyword, as hashed by
    ComposableType.cpp:42. -/
def Kw.firstChar : Kw → Char
  | .struct => 's' | .union => 'u' | .cls => 'c'

/-- `static_cast<uint32_t>(m_type)` of IncompleteType.cpp:51. -/
def Kw.idx : Kw → Nat
  | .struct => 0 | .union => 1 | .cls => 2

/-- `FunctionAccessSpecifier`, include/Function.h. -/
inductive Access where
  | na | pub | prot | priv
  deriving DecidableEq, Repr

/-- Numeric value hashed by Function.cpp:142. -/
def Access.idx : Access → Nat
  | .na => 0 | .pub => 1 | .priv => 2 | .prot => 3

/-- The scalar members of `Function` (Function.cpp:5-19) without parameters, return type and
    parent; an attribute is its name and its parameters (FunctionAttribute.cpp:9-13). -/
structure FnInfo where
  name : String
  attributes : List (String × List String) := []
  variadic : Bool := false
  inlined : Bool := false
  isStatic : Bool := false
  access : Access := .na
  classConst : Bool := false
  deriving DecidableEq, Repr

/-- The flags an `IncompleteType` copies from the type it stands for, IncompleteType.cpp:10-17. -/
structure IncFlags where
  cType : Bool := false
  enum : Bool := false
  function : Bool := false
  implicit : Bool := false
  pointer : Bool := false
  struct : Bool := false
  union : Bool := false
  deriving DecidableEq, Repr

mutual
/-- The subclasses of `TypeItf`; `implicit` is `m_isImplicit` (TypeItf.cpp:115-119).
    Sources: EasyMock_CType.cpp, Pointer.cpp, Reference.cpp, ConstQualifiedType.cpp,
    TypedefType.cpp, Enum.cpp, ComposableType.cpp, IncompleteType.cpp, FunctionType.cpp. -/
inductive Ty where
  /-- `CType`; `naked` is `m_initAsNakedChar`. -/
  | ctype (c : CT) (naked : Bool) (implicit : Bool)
  | ptr (implicit : Bool) (pointee : Ty)
  | ref (implicit : Bool) (pointee : Ty)
  | const (implicit : Bool) (inner : Ty)
  | tdef (implicit : Bool) (name : String) (typee : Ty)
  /-- `Enum`; the `std::map` is listed in key order. -/
  | enum (implicit : Bool) (name : String) (values : List (Nat × String))
  | comp (implicit : Bool) (kw : Kw) (name : String) (fields : Fields)
      (embedded fwd : Bool) (methods : Methods)
  | incomplete (flags : IncFlags) (kind : Kw) (name : String)
  | fn (implicit : Bool) (info : FnInfo) (retStr : String) (ret : Ty) (params : Params)

/-- `ComposableFieldTypeVector`: each field has the declared string and the type of its
    `Declarator`, a name and an array size (`ComposableField`) or a bit width
    (`ComposableBitfield`). -/
inductive Fields where
  | nil
  | field (declStr : String) (ty : Ty) (name : String) (arraySize : Int) (rest : Fields)
  | bit (declStr : String) (ty : Ty) (name : String) (size : Nat) (rest : Fields)

/-- `Parameter::Vector`. -/
inductive Params where
  | nil
  | cons (declStr : String) (ty : Ty) (name : String) (rest : Params)

/-- `ComposableMethodVector`: `FunctionDeclaration`s; `parent` is the name of the locked
    `m_parentData`, `ns` the names of the enclosing namespaces below the global one. -/
inductive Methods where
  | nil
  | cons (info : FnInfo) (retStr : String) (ret : Ty) (params : Params) (parent : Option String)
      (hasBody : Bool) (ns : List String) (rest : Methods)
end

instance : Inhabited Ty := ⟨.ctype .invalid false false⟩

/-- Name and flags of `TypeItf` (TypeItf.cpp:42-58). -/
structure Attrs where
  name : String
  cType : Bool := false
  struct : Bool := false
  union : Bool := false
  pointer : Bool := false
  reference : Bool := false
  function : Bool := false
  enum : Bool := false
  implicit : Bool := false
  incomplete : Bool := false
  typedef : Bool := false
  qualified : Bool := false
  deriving DecidableEq, Repr

/-- Name and flags of every object, as set by the constructors: EasyMock_CType.cpp:9-16,
    Pointer.cpp:7-13, Reference.cpp:3-7, QualifiedType.cpp:9-15, TypedefType.cpp:6-13,
    Enum.cpp:6-11, StructType.cpp/UnionType.cpp/ClassType.cpp (a class sets the struct flag),
    IncompleteType.cpp:5-18, FunctionType.cpp:5-11. -/
def attrs : Ty → Attrs
  | .ctype c _ i => { name := c.str, cType := true, implicit := i }
  | .ptr i _ => { name := "", pointer := true, implicit := i }
  | .ref i _ => { name := "", reference := true, implicit := i }
  | .const i _ => { name := "", qualified := true, implicit := i }
  | .tdef i n _ => { name := n, typedef := true, implicit := i }
  | .enum i n _ => { name := n, enum := true, implicit := i }
  | .comp i .union n _ _ _ _ => { name := n, union := true, implicit := i }
  | .comp i _ n _ _ _ _ => { name := n, struct := true, implicit := i }
  | .incomplete f _ n =>
    { name := n, incomplete := true, cType := f.cType, enum := f.enum, function := f.function,
      implicit := f.implicit, pointer := f.pointer, struct := f.struct, union := f.union }
  | .fn i _ _ _ _ => { name := "", function := true, implicit := i }

/-- `TypeItf::isComposableType`, TypeItf.cpp:246-249. -/
def isComposable (t : Ty) : Bool :=
  !(attrs t).incomplete && ((attrs t).struct || (attrs t).union)

/-- `TypeItf::isEnum`, TypeItf.cpp:317-320. -/
def isEnum (t : Ty) : Bool := !(attrs t).incomplete && (attrs t).enum

/-- `TypeItf::isPointer`, TypeItf.cpp:265-268. -/
def isPointer (t : Ty) : Bool := !(attrs t).incomplete && (attrs t).pointer

/-- `TypeItf::isReference`, TypeItf.cpp:270-273. -/
def isReference (t : Ty) : Bool := !(attrs t).incomplete && (attrs t).reference

/-- `TypeItf::isFunctionType`, TypeItf.cpp:298-301. -/
def isFunctionType (t : Ty) : Bool := !(attrs t).incomplete && (attrs t).function

/-- `TypeItf::isImplicit`, TypeItf.cpp:110-113. -/
def isImplicit (t : Ty) : Bool := !(attrs t).incomplete && (attrs t).implicit

/-- `TypeItf::isConst`, TypeItf.cpp:105-108. -/
def isConst : Ty → Bool
  | .const _ _ => true
  | _ => false

/-- `TypeItf::getRawType`, TypeItf.cpp:399-426. -/
def rawType : Ty → Ty
  | .ptr _ t => rawType t
  | .ref _ t => rawType t
  | .const _ t => rawType t
  | .tdef _ _ t => rawType t
  | t => t

/-- `TypeItf::isAnonymous`, TypeItf.cpp:236-244. -/
def isAnonymous (t : Ty) : Bool :=
  (isComposable (rawType t) || isEnum (rawType t)) && (attrs t).name.isEmpty

/-- `TypeItf::containsTypeDef`, TypeItf.cpp:174-193. -/
def containsTypeDef : Ty → Bool
  | .tdef _ _ _ => true
  | .ptr _ t => containsTypeDef t
  | .ref _ t => containsTypeDef t
  | .const _ t => containsTypeDef t
  | _ => false

/-- `Pointer::getMostPointedType` (Pointer.cpp:84-92) preceded by the test of
    `CodeGeneratorCTemplate::getMostPointedType` (CodeGeneratorCTemplate.cpp:2482-2490). -/
def mostPointed : Ty → Ty
  | .ptr _ t => mostPointed t
  | t => t

/-- `TypedefType::getMostDefinedTypee`, TypedefType.cpp:82-90, on the typedef itself. -/
def mostDefinedTypee : Ty → Ty
  | .tdef _ _ t => mostDefinedTypee t
  | t => t

/-- `getUnqualifiedAndUntypedefType` (CodeGeneratorCTemplate.cpp:972-987); the type returned by
    `CodeGeneratorCTemplate::getMostDefinedType` (1060-1082) is the same. -/
def untypedef : Ty → Ty
  | .const _ t => untypedef t
  | .tdef _ _ t => untypedef t
  | t => t

/-- `getTypeDefType`, CodeGeneratorCTemplate.cpp:989-1007. -/
def typedefOf : Ty → Option Ty
  | .tdef i n t => some (.tdef i n t)
  | .ptr _ t => typedefOf t
  | .const _ t => typedefOf t
  | _ => none

/-- `CodeGeneratorCTemplate::getDereferencedType`, CodeGeneratorCTemplate.cpp:2427-2435. -/
def dereferenced : Ty → Ty
  | .ref _ t => dereferenced t
  | t => t

/-- One evaluation of the loop of `TypeItf::unqualify` (TypeItf.cpp:124-127): `none` when the
    condition fails, otherwise the next value of `unqualifiedType`.  The body reads `this`, not
    `unqualifiedType`. -/
def unqualifyStep (this cur : Ty) : Option Ty :=
  if (attrs cur).qualified then
    match this with
    | .const _ inner => some inner
    | other => some other
  else none

/-- `TypeItf::unqualify`, TypeItf.cpp:121-129, with at most `fuel` evaluations of the loop
    condition; `none` = the loop has not finished. -/
def unqualifyLoop : Nat → Ty → Ty → Option Ty
  | 0, _, _ => none
  | fuel + 1, this, cur =>
    match unqualifyStep this cur with
    | none => some cur
    | some next => unqualifyLoop fuel this next

/-- `TypeItf::unqualify` started on a type. -/
def unqualifyFuel (fuel : Nat) (t : Ty) : Option Ty := unqualifyLoop fuel t t

/-! ## Declaration strings -/

/-- `while(s.back() == ' ') s.pop_back();` (TypeItf.cpp:386-389); on a string of blanks only the
    C++ code reads `back()` of an empty string, the model stops. -/
def trimR (s : String) : String :=
  String.ofList (s.toList.reverse.dropWhile (· == ' ')).reverse

mutual
/-- `getDeclarationPrefix` of every class (the `p_naked` argument is read by none of them):
    EasyMock_CType.cpp:131-134, Pointer.cpp:79-82, Reference.cpp:9-12, QualifiedType.cpp:85-88
    with `getFullDeclarationName` (TypeItf.cpp:380-391) inlined, TypedefType.cpp:97-100,
    Enum.cpp:36-44, ComposableType.cpp:104-112, IncompleteType.cpp:34-42,
    FunctionType.cpp:23-26. -/
def declPrefix : Ty → String
  | .ctype c _ _ => c.str
  | .ptr _ t => declPrefix t ++ "*"
  | .ref _ t => declPrefix t ++ "&"
  | .const _ t => trimR (declPrefix t ++ " " ++ declPostfix t) ++ " " ++ "const"
  | .tdef _ n _ => n
  | .enum _ n _ => trimR ("enum " ++ n)
  | .comp _ kw n _ _ _ _ => trimR (kw.str ++ " " ++ n)
  | .incomplete _ kw n => trimR (kw.str ++ " " ++ n)
  | .fn _ _ _ ret _ => declPrefix ret ++ "("

/-- `getDeclarationPostfix`: FunctionType.cpp:28-44, `""` otherwise (TypeItf.cpp:433-436). -/
def declPostfix : Ty → String
  | .fn _ _ _ _ ps => ")(" ++ ", ".intercalate (paramDecls ps) ++ ")"
  | _ => ""

/-- The `getDeclareString` (Declarator.cpp:53-64) of every parameter. -/
def paramDecls : Params → List String
  | .nil => []
  | .cons s t _ rest => (if s.isEmpty then declPrefix t else s) :: paramDecls rest
end

/-- `TypeItf::getFullDeclarationName`, TypeItf.cpp:380-391. -/
def fullName (t : Ty) : String := trimR (declPrefix t ++ " " ++ declPostfix t)

/-- `Declarator::getDeclareString`, Declarator.cpp:53-64. -/
def declareString (s : String) (t : Ty) : String := if s.isEmpty then declPrefix t else s

/-- `"type name"` of every parameter in a prototype, Function.cpp:282-292. -/
def protoParams : Params → List String
  | .nil => []
  | .cons s t n rest => (declareString s t ++ " " ++ n) :: protoParams rest

/-- One attribute in a prototype, Function.cpp:250-268. -/
def protoAttr (a : String × List String) : String :=
  "__attribute__((" ++ a.1 ++
    (if a.2.isEmpty then "" else "(" ++ ",".intercalate a.2 ++ ")") ++ ")) "

/-- `Function::getFunctionPrototype`, Function.cpp:237-309. -/
def prototype (info : FnInfo) (retStr : String) (ret : Ty) (ps : Params)
    (parent : Option String) : String :=
  (if info.isStatic then "static " else "") ++
  (if info.inlined then "inline " else "") ++
  String.join (info.attributes.map protoAttr) ++
  declareString retStr ret ++ " " ++
  (match parent with | some p => p ++ "::" | none => "") ++
  info.name ++ "(" ++
  ", ".intercalate (protoParams ps ++ (if info.variadic then ["..."] else [])) ++ ")" ++
  (if info.classConst then " const" else "")

/-- The prototypes of the methods, compared by ComposableType.cpp:88-100. -/
def prototypes : Methods → List String
  | .nil => []
  | .cons info s r ps parent _ _ rest => prototype info s r ps parent :: prototypes rest

/-! ## Equality -/

/-- `TypeItf::isEqual`, TypeItf.cpp:478-500. -/
def baseEq (a b : Ty) : Bool := isAnonymous a == isAnonymous b && attrs a == attrs b

mutual
/-- The virtual `isEqual` (called by `TypeItf::operator==`, TypeItf.cpp:473-476):
    EasyMock_CType.cpp:114-129, Pointer.cpp:61-77, Reference.cpp:14-30, QualifiedType.cpp:72-83
    with ConstQualifiedType.cpp:55-61, TypedefType.cpp:59-70, Enum.cpp:23-34,
    ComposableType.cpp:75-102, TypeItf.cpp:478 for `IncompleteType` (not overridden),
    FunctionType.cpp:76-87 with Function.cpp:206-230 (a function type has no parent). -/
def isEqual : Ty → Ty → Bool
  | .ctype c n i, b => baseEq (.ctype c n i) b && (attrs b).cType &&
      (match b with | .ctype c' _ _ => c == c' | _ => false)
  | .ptr i t, b => baseEq (.ptr i t) b && isPointer b &&
      (match b with | .ptr _ u => isEqual t u | _ => false)
  | .ref i t, b => baseEq (.ref i t) b && isReference b &&
      (match b with | .ref _ u => isEqual t u | _ => false)
  | .const i t, b =>
      (match b with | .const _ u => baseEq (.const i t) b && isEqual t u | _ => false)
  | .tdef i n t, b => baseEq (.tdef i n t) b &&
      (match b with | .tdef _ _ u => isEqual t u | _ => false)
  | .enum i n vs, b => baseEq (.enum i n vs) b &&
      (match b with | .enum _ _ ws => vs == ws | _ => false)
  | .comp i kw n fs emb fwd ms, b => baseEq (.comp i kw n fs emb fwd ms) b &&
      (match b with
       | .comp _ kw' _ fs' emb' fwd' ms' =>
         prototypes ms == prototypes ms' &&
         (kw == kw' && fieldsEq fs fs' && emb == emb' && fwd == fwd')
       | _ => false)
  | .incomplete f k n, b => baseEq (.incomplete f k n) b
  | .fn i info s r ps, b =>
      (match b with
       | .fn _ info' s' r' ps' =>
         (info.inlined == info'.inlined && info.variadic == info'.variadic &&
          info.name == info'.name && paramsEq ps ps' && (isEqual r r' && s == s') &&
          info.attributes == info'.attributes && info.isStatic == info'.isStatic &&
          info.access == info'.access && info.classConst == info'.classConst) &&
         baseEq (.fn i info s r ps) b
       | _ => false)

/-- `m_elem == other->m_elem`: equality of vectors of variants; ComposableField.cpp:56-67,
    ComposableBitfield.cpp:56-67, ComposableFieldItf.cpp:81-91, Declarator.cpp:91-112. -/
def fieldsEq : Fields → Fields → Bool
  | .nil, .nil => true
  | .field s t n a rest, .field s' t' n' a' rest' =>
      (isEqual t t' && s == s' && n == n' && a == a') && fieldsEq rest rest'
  | .bit s t n k rest, .bit s' t' n' k' rest' =>
      (isEqual t t' && s == s' && n == n' && k == k') && fieldsEq rest rest'
  | _, _ => false

/-- `m_parameters == other.m_parameters`: the names are not compared, Parameter.cpp:76-80. -/
def paramsEq : Params → Params → Bool
  | .nil, .nil => true
  | .cons s t _ rest, .cons s' t' _ rest' => (isEqual t t' && s == s') && paramsEq rest rest'
  | _, _ => false
end

/-! ## Hashes -/

/-- The hash arithmetic: `boost::hash_combine(seed, v)` is `mix seed (hash of v)`; `str`, `bool`,
    `nat`, `int`, `chr` are boost's hashes of the basic values. -/
structure Hasher (H : Type) where
  zero : H
  mix : H → H → H
  str : String → H
  bool : Bool → H
  nat : Nat → H
  int : Int → H
  chr : Char → H

/-- A sequence of `boost::hash_combine` calls; with `zero` as seed this is `boost::hash_range`. -/
def chain {H : Type} (h : Hasher H) (seed : H) (xs : List H) : H := xs.foldl h.mix seed

/-- `TypeItf::getHash`, TypeItf.cpp:438-459. -/
def hashAttrs {H : Type} (h : Hasher H) (a : Attrs) : H :=
  chain h h.zero [h.str a.name, h.bool a.cType, h.bool a.struct, h.bool a.union,
    h.bool a.pointer, h.bool a.reference, h.bool a.function, h.bool a.enum, h.bool a.implicit,
    h.bool a.incomplete, h.bool a.typedef, h.bool a.qualified]

/-- Hash of one entry of `std::map<unsigned, std::string>` (boost's hash of a pair). -/
def hashPair {H : Type} (h : Hasher H) (p : Nat × String) : H := chain h h.zero [h.nat p.1, h.str p.2]

/-- `FunctionAttribute::getHash`, FunctionAttribute.cpp:33-44. -/
def hashAttribute {H : Type} (h : Hasher H) (a : String × List String) : H :=
  chain h h.zero [h.str a.1, chain h h.zero (a.2.map h.str)]

/-- `Declarator::getHash`, Declarator.cpp:71-82, from the hash of the type. -/
def hashDecl {H : Type} (h : Hasher H) (s : String) (t : H) : H := chain h h.zero [h.str s, t]

/-- `Function::getHash`, Function.cpp:124-146, from the hashes of the parameters and of the
    return value. -/
def hashFn {H : Type} (h : Hasher H) (info : FnInfo) (params : List H) (ret : H) : H :=
  chain h h.zero [h.bool info.inlined, h.bool info.variadic, h.str info.name,
    chain h h.zero params, ret, chain h h.zero (info.attributes.map (hashAttribute h)),
    h.bool info.isStatic, h.nat info.access.idx, h.bool info.classConst]

/-- `Namespace::getHash`, Namespace.cpp:46-56; the global namespace is named `::` (40-44). -/
def hashNamespace {H : Type} (h : Hasher H) (ns : List String) : H :=
  chain h h.zero (("::" :: ns).map h.str)

/-- `FunctionDeclaration::getHash`, FunctionDeclaration.cpp:31-43 (`ElementToMock::getHash` is
    0), from the hash of the function. -/
def hashFnDecl {H : Type} (h : Hasher H) (f : H) (hasBody : Bool) (ns : List String) : H :=
  chain h f [h.nat 0, h.bool hasBody, hashNamespace h ns]

mutual
/-- The virtual `getHash` without caches: EasyMock_CType.cpp:136-147, Pointer.cpp:41-51 (also used
    by `Reference`), QualifiedType.cpp:52-62 with ConstQualifiedType.cpp:27-36,
    TypedefType.cpp:25-35 (`getRawHash` of a typedef is the hash of its typee, 50-57),
    Enum.cpp:46-56, ComposableType.cpp:35-53, IncompleteType.cpp:44-54,
    FunctionType.cpp:46-66. -/
def hash {H : Type} (h : Hasher H) : Ty → H
  | .ctype c n i => chain h (hashAttrs h (attrs (.ctype c n i))) [h.nat c.idx, h.bool n]
  | .ptr i t => chain h (hashAttrs h (attrs (.ptr i t))) [hash h t]
  | .ref i t => chain h (hashAttrs h (attrs (.ref i t))) [hash h t]
  | .const i t => chain h (hashAttrs h (attrs (.const i t))) [hash h t, h.str "const"]
  | .tdef i n t => chain h (hashAttrs h (attrs (.tdef i n t))) [hash h t]
  | .enum i n vs =>
      chain h (hashAttrs h (attrs (.enum i n vs))) [chain h h.zero (vs.map (hashPair h))]
  | .comp i kw n fs emb fwd ms =>
      chain h (hashAttrs h (attrs (.comp i kw n fs emb fwd ms)))
        ([h.chr kw.firstChar, chain h h.zero (hashFields h fs), h.bool emb, h.bool fwd] ++
          hashMethods h ms)
  | .incomplete f k n => chain h (hashAttrs h (attrs (.incomplete f k n))) [h.nat k.idx]
  | .fn i info s r ps =>
      chain h (hashFn h info (hashParams h ps) (hashDecl h s (hash h r)))
        [hashAttrs h (attrs (.fn i info s r ps))]

/-- Hashes of the fields: ComposableField.cpp:37-47, ComposableBitfield.cpp:37-47 on top of
    ComposableFieldItf.cpp:62-72; boost's hash of a variant combines the index first. -/
def hashFields {H : Type} (h : Hasher H) : Fields → List H
  | .nil => []
  | .field s t n a rest =>
      chain h h.zero [h.nat 0, chain h (hashDecl h s (hash h t)) [h.str n, h.int a]]
        :: hashFields h rest
  | .bit s t n k rest =>
      chain h h.zero [h.nat 1, chain h (hashDecl h s (hash h t)) [h.str n, h.nat k]]
        :: hashFields h rest

/-- Hashes of the parameters, Parameter.cpp:57-67 (the name is not hashed). -/
def hashParams {H : Type} (h : Hasher H) : Params → List H
  | .nil => []
  | .cons s t _ rest => hashDecl h s (hash h t) :: hashParams h rest

/-- Hashes of the methods, ComposableType.cpp:46-50. -/
def hashMethods {H : Type} (h : Hasher H) : Methods → List H
  | .nil => []
  | .cons info s r ps _ body ns rest =>
      hashFnDecl h (hashFn h info (hashParams h ps) (hashDecl h s (hash h r))) body ns
        :: hashMethods h rest
end

/-- The virtual `getRawHash` of a type: `TypedefType::getRawHash` (TypedefType.cpp:50-57) strips
    one typedef, `TypeItf::getRawHash` (TypeItf.cpp:467-471) is the hash. -/
def rawHash {H : Type} (h : Hasher H) : Ty → H
  | .tdef _ _ t => hash h t
  | t => hash h t

/-! ## Function declarations -/

/-- `FunctionDeclaration`: FunctionDeclaration.cpp:7-19, Function.cpp:5-19. -/
structure FunDecl where
  info : FnInfo
  retStr : String
  ret : Ty
  params : Params
  /-- the locked `m_parentData` -/
  parent : Option Ty := none
  hasBody : Bool := false
  ns : List String := []
  /-- `m_originFile` -/
  originFile : String := ""

/-- `Function::operator==`, Function.cpp:206-230. -/
def funEq (f g : FunDecl) : Bool :=
  f.info.inlined == g.info.inlined && f.info.variadic == g.info.variadic &&
  f.info.name == g.info.name && paramsEq f.params g.params &&
  (isEqual f.ret g.ret && f.retStr == g.retStr) &&
  f.info.attributes == g.info.attributes && f.info.isStatic == g.info.isStatic &&
  (match f.parent, g.parent with
   | none, none => true
   | some p, some q => isEqual p q
   | _, _ => false) &&
  f.info.access == g.info.access && f.info.classConst == g.info.classConst

/-- `FunctionDeclaration::operator==`, FunctionDeclaration.cpp:58-69; namespaces are compared by
    name up to the global one, Namespace.cpp:22-33. -/
def declEq (f g : FunDecl) : Bool :=
  funEq f g && f.hasBody == g.hasBody && f.ns == g.ns

/-- `FunctionDeclaration::getHash`, FunctionDeclaration.cpp:31-43. -/
def declHash {H : Type} (h : Hasher H) (f : FunDecl) : H :=
  hashFnDecl h (hashFn h f.info (hashParams h f.params) (hashDecl h f.retStr (hash h f.ret)))
    f.hasBody f.ns

/-- The raw hashes of the parameters, Function.cpp:185-189. -/
def rawHashParams {H : Type} (h : Hasher H) : Params → List H
  | .nil => []
  | .cons _ t _ rest => rawHash h t :: rawHashParams h rest

/-- `Function::getRawHash`, Function.cpp:176-194; used as key of "already generated" by
    CodeGeneratorCTemplate.cpp:1346-1352. -/
def declRawHash {H : Type} (h : Hasher H) (f : FunDecl) : H :=
  chain h h.zero ([h.bool f.info.variadic, h.str f.info.name] ++ rawHashParams h f.params ++
    [rawHash h f.ret])

/-! ## Basic types -/

/-- A `CType` object: `m_cType`, `m_initAsNakedChar` and the inherited `m_name`. -/
structure CTypeObj where
  c : CT
  naked : Bool
  name : String
  deriving DecidableEq, Repr

/-- `CType::CType`, EasyMock_CType.cpp:9-16. -/
def CTypeObj.new (c : CT) : CTypeObj := { c, naked := c == .char, name := c.str }

/-- "signed to unsigned", EasyMock_CType.cpp:29-61; `charSigned` is `IS_CHAR_DEFAULT_SIGNED`. -/
def toUnsigned (charSigned naked : Bool) : CT → CT
  | .char => if charSigned then .uchar else .invalid
  | .schar => if !charSigned && naked then .char else .uchar
  | .short => .ushort
  | .int => .uint
  | .long => .ulong
  | .longLong => .ulongLong
  | .int128 => .uint128
  | _ => .invalid

/-- "unsigned to signed", EasyMock_CType.cpp:65-97. -/
def toSigned (charSigned naked : Bool) : CT → CT
  | .char => if charSigned then .invalid else .schar
  | .uchar => if charSigned && naked then .char else .schar
  | .ushort => .short
  | .uint => .int
  | .ulong => .long
  | .ulongLong => .longLong
  | .uint128 => .int128
  | _ => .invalid

/-- `CType::setUnsigned` with `updateCType`, EasyMock_CType.cpp:23-112: the returned value and the
    object afterwards. -/
def setUnsigned (charSigned val : Bool) (o : CTypeObj) : Bool × CTypeObj :=
  let n := if val then toUnsigned charSigned o.naked o.c else toSigned charSigned o.naked o.c
  if n == .invalid then (false, o)
  else (true, { o with c := n, name := n.str })

/-! ## Enumerations -/

/-- The conversion of the `int64_t` value to the `unsigned int` key of the map
    (Enum.cpp:13-16, include/Enum.h:28). -/
def enumKey (v : Int) : Nat := (v % 4294967296).toNat

/-- `std::map::emplace` on a map listed in key order: the first value of a key wins. -/
def mapEmplace (m : List (Nat × String)) (k : Nat) (s : String) : List (Nat × String) :=
  match m with
  | [] => [(k, s)]
  | (k', s') :: rest =>
    if k < k' then (k, s) :: (k', s') :: rest
    else if k = k' then (k', s') :: rest
    else (k', s') :: mapEmplace rest k s

/-- `Enum::addEnumValue`, Enum.cpp:13-16. -/
def addEnumValue (m : List (Nat × String)) (v : Int) (s : String) : List (Nat × String) :=
  mapEmplace m (enumKey v) s

/-- The loop over the enumerators of the parsed enum, LLVMParser.cpp:782-788. -/
def parseEnum (es : List (String × Int)) : List (Nat × String) :=
  es.foldl (fun m e => addEnumValue m e.2 e.1) []

/-- The enumerators written by `generateEnum` (CodeGeneratorCTemplate.cpp:2548-2582, template
    870-876), each as its name and the value it is given; an empty enum gets a dummy one. -/
def generatedEnum (name : String) (values : List (Nat × String)) : List (String × Nat) :=
  if values.isEmpty then [(name ++ "_" ++ "dummy", 0)]
  else values.map (fun p => (p.2, p.1))

/-- The text of the declaration, template at CodeGeneratorCTemplate.cpp:870-876 (without guard). -/
def enumText (name : String) (values : List (Nat × String)) : String :=
  "enum " ++ name ++ "\n{\n" ++
  String.join ((generatedEnum name values).map
    (fun p => "  " ++ p.1 ++ " = " ++ toString p.2 ++ ",\n")) ++ "};\n"

end EasyMock.Types
