import Verif.Types.Model
import Verif.Parser.Text

/-!
# Parser: from clang's types to the types of the generator

Model of `getEasyMocktype` and what it calls, `src/easyMockGenerate/src/LLVMParser/LLVMParser.cpp` (PARSER) 590-946,
949-972, 1034-1085, 1097-1110.

Simplifications.
* clang's AST is an input: a table of records and enumerations, and types which refer to it by number.  Sugar other than
  typedefs (elaborated types, parentheses, decay) is transparent and not represented; `volatile` is ignored by the parser,
  other qualifiers (`restrict`, address spaces) are not represented.
* `TD_RD->isTopLevelDeclInObjCContainer()` (852) is false for C and C++ code.
* No record is implicit, so `setImplicit(false)` (642-646) changes nothing.  Member functions, which
  `getFunctionDeclaration` adds to the class later (202), are not represented.
* `structKnownType` is passed by reference, but every call removes exactly the names it has inserted (a name which was
  there before ends the call earlier), so it is passed by value here.
* A shared pointer to a finished type is the type.
-/

namespace EasyMock.Parser

open EasyMock.Types (Ty Fields Params Methods Kw CT CTypeObj)

/-- The kinds of `clang::BuiltinType` the parser tells apart; `charS`, `charU`: plain `char`, signed or unsigned. -/
inductive Builtin where
  | void | bool | charS | charU | schar | uchar | short | ushort | int | uint | long | ulong | longLong | ulongLong
  | int128 | uint128 | float | double | longDouble | other
  deriving DecidableEq, Repr

mutual
/-- `clang::Type`. -/
inductive CTy where
  | builtin (b : Builtin)
  | ptr (q : Q)
  | ref (q : Q)
  | arr (size : Option Nat) (q : Q)
  | record (id : Nat)
  | enum (id : Nat)
  | fn (ret : Q) (params : Qs) (variadic : Bool)
  | tdef (name : String) (q : Q)

/-- `clang::QualType`: a type with its local `const` and `volatile`. -/
inductive Q where
  | mk (isConst isVolatile : Bool) (ty : CTy)

/-- Parameter types. -/
inductive Qs where
  | nil
  | cons (q : Q) (rest : Qs)
end

/-- The type without the local qualifier. -/
def Q.ty : Q → CTy
  | .mk _ _ t => t

/-- The local `const`. -/
def Q.isConst : Q → Bool
  | .mk k _ _ => k

/-- `clang::FieldDecl`: `text` is the source text from its beginning to its end location. -/
structure FieldD where
  text : List Char
  q : Q
  name : String
  bits : Option Nat := none

/-- `clang::RecordDecl`. -/
structure RecD where
  kw : Kw
  tag : String
  complete : Bool := true
  inDeclarator : Bool := false
  fields : List FieldD := []

/-- `clang::EnumDecl`. -/
structure EnumD where
  tag : String
  values : List (String × Int)

/-- A translation unit and the configuration: `IS_CHAR_DEFAULT_SIGNED` and `m_ignoreTypeFieldList`. -/
structure Decls where
  records : Nat → RecD
  enums : Nat → EnumD
  charSigned : Bool := true
  ignored : List String := []

/-! ## Builtin types -/

/-- `isUnsignedIntegerType`. -/
def Builtin.isUnsigned : Builtin → Bool
  | .bool | .charU | .uchar | .ushort | .uint | .ulong | .ulongLong | .uint128 => true
  | _ => false

/-- The `CType` which is created, PARSER:653-713; `const`: the canonical type is const, which changes
    `nakedDeclString`. -/
def Builtin.base (charSigned const : Bool) : Builtin → Option CT
  | .void => some .void
  | .charS | .charU | .schar => some .char
  | .uchar => if !charSigned && !const then some .uchar else some .char
  | .short | .ushort => some .short
  | .long | .ulong => some .long
  | .int | .uint => some .int
  | .longLong | .ulongLong => some .longLong
  | .double => some .double
  | .longDouble => some .longDouble
  | .float => some .float
  | .bool => some .int
  | .int128 | .uint128 => some .int128
  | .other => none

/-- `getFromBuiltinType` without the typedef, PARSER:651-719; `none`: the assertion. -/
def builtinTy (charSigned const : Bool) (b : Builtin) : Option Ty :=
  match b.base charSigned const with
  | none => none
  | some c =>
    let o := if b.isUnsigned then (Types.setUnsigned charSigned true (CTypeObj.new c)).2 else CTypeObj.new c
    some (.ctype o.c o.naked false)

/-! ## Types -/

/-- `structKnownType`. -/
abbrev Known := List (String × Ty)

/-- `m_cachedStruct`. -/
abbrev Cache := List (String × Ty)

/-- Why a type is not converted: an assertion, or the recursion is too deep. -/
inductive Err where
  | stop | deep
  deriving DecidableEq, Repr

/-- A type and the cache afterwards. -/
abbrev Res (α : Type) := Except Err (α × Cache)

/-- `getFromContainerType`: known types, embedded, typedef name, record. -/
abbrev Handler := Known → Bool → String → Nat → Cache → Res Ty

/-- The `TypedefType` around a type, e.g. PARSER:720-725. -/
def named (name : String) (t : Ty) : Ty := if name.isEmpty then t else .tdef false name t

mutual
/-- `getEasyMocktype` below the local `const`, PARSER:595-635, with the functions for the single kinds: 651-734, 751-796,
    949-972.  `name` is the name of the outermost typedef seen so far (1097-1110). -/
def parseT (D : Decls) (h : Handler) (known : Known) (emb const : Bool) (name : String) : CTy → Cache → Res Ty
  | .builtin b, c =>
    match builtinTy D.charSigned const b with
    | none => .error .stop
    | some t => .ok (named name t, c)
  | .ptr q, c =>
    match parseQ D h known emb q c with
    | .error e => .error e
    | .ok (t, c) => .ok (named name (.ptr false t), c)
  | .ref q, c =>
    match parseQ D h known emb q c with
    | .error e => .error e
    | .ok (t, c) => .ok (named name (.ref false t), c)
  | .arr _ q, c => parseQ D h known emb q c
  | .record id, c => h known emb name id c
  | .enum id, c => .ok (named name (.enum false (D.enums id).tag (Types.parseEnum (D.enums id).values)), c)
  | .fn ret ps _, c =>
    match parseQ D h known false ret c with
    | .error e => .error e
    | .ok (r, c) =>
      match parseQs D h known ps c with
      | .error e => .error e
      | .ok (ps, c) => .ok (.fn false { name := "" } (Types.declPrefix r) r ps, c)
  | .tdef n (.mk k _ t), c => parseT D h known emb (const || k) (if name.isEmpty then n else name) t c

/-- `getEasyMocktype`, PARSER:590-648. -/
def parseQ (D : Decls) (h : Handler) (known : Known) (emb : Bool) : Q → Cache → Res Ty
  | .mk k _ t, c =>
    match parseT D h known emb k "" t c with
    | .error e => .error e
    | .ok (t, c) => .ok (if k then .const false t else t, c)

/-- The parameters of a function type, PARSER:760-769. -/
def parseQs (D : Decls) (h : Handler) (known : Known) : Qs → Cache → Res Params
  | .nil, c => .ok (.nil, c)
  | .cons q rest, c =>
    match parseQ D h known false q c with
    | .error e => .error e
    | .ok (t, c) =>
      match parseQs D h known rest c with
      | .error e => .error e
      | .ok (ps, c) => .ok (.cons (Types.declPrefix t) t "" ps, c)
end

/-! ## Fields -/

/-- The type without typedefs. -/
def CTy.canon : CTy → CTy
  | .tdef _ (.mk _ _ t) => t.canon
  | t => t

mutual
/-- `isFunctionType`, PARSER:1034-1043. -/
def CTy.isFn : CTy → Bool
  | .ptr q => q.isFn
  | .fn _ _ _ => true
  | .tdef _ q => q.isFn
  | _ => false

/-- The same for a qualified type. -/
def Q.isFn : Q → Bool
  | .mk _ _ t => t.isFn
end

/-- The array size of a field, PARSER:915-919, 1062-1072. -/
def arraySize (t : CTy) : Int :=
  match t.canon with
  | .arr n _ => (n.getD 0 : Nat)
  | _ => -1

/-- `setDeclaratorDeclareString`, PARSER:1074-1081, on a new declarator, Declarator.cpp:11-51: the new string, or, if that is
    empty, the full name of the type; the string of the constructor is kept for functions without typedef. -/
def declaratorString (q : Q) (t : Ty) (new : List Char) : String :=
  if !q.isFn || (Types.attrs t).typedef then (if new.isEmpty then Types.fullName t else String.ofList new)
  else Types.declPrefix t

/-- The declared string of a field, PARSER:920-921. -/
def fieldString (q : Q) (text : List Char) (t : Ty) : String := declaratorString q t (declareString true text)

/-- The assertion for bit-fields, PARSER:903-912. -/
def bitOk (t : Ty) (w : Nat) : Bool :=
  ((Types.attrs t).cType || !((Types.attrs t).typedef && !(Types.attrs (Types.mostDefinedTypee t)).cType)) && w < 256

/-- The loop over the fields, PARSER:893-924. -/
def parseFields (D : Decls) (h : Handler) (known : Known) : List FieldD → Cache → Res Fields
  | [], c => .ok (.nil, c)
  | f :: fs, c =>
    match parseQ D h known true f.q c with
    | .error e => .error e
    | .ok (t, c) =>
      match f.bits with
      | some w =>
        if bitOk t w then
          match parseFields D h known fs c with
          | .error e => .error e
          | .ok (r, c) => .ok (.bit (Types.declPrefix t) t f.name w r, c)
        else .error .stop
      | none =>
        match parseFields D h known fs c with
        | .error e => .error e
        | .ok (r, c) => .ok (.field (fieldString f.q f.text t) t f.name (arraySize f.q.ty) r, c)

/-! ## Records -/

/-- `std::unordered_map::find`. -/
def find (k : String) : List (String × Ty) → Option Ty
  | [] => none
  | (k', t) :: r => if k' = k then some t else find k r

/-- `std::unordered_map::insert`: an entry which exists is kept. -/
def insert (k : String) (t : Ty) (m : List (String × Ty)) : List (String × Ty) :=
  match find k m with
  | some _ => m
  | none => (k, t) :: m

/-- The `IncompleteType` of a record, PARSER:860-886, IncompleteType.cpp:5-18. -/
def incompleteOf (r : RecD) : Ty :=
  .incomplete { struct := r.kw != .union, union := r.kw == .union } r.kw r.tag

/-- `structKnownType` while the fields are converted, PARSER:879-886. -/
def knownInside (r : RecD) (td : String) (known : Known) : Known :=
  let k := if td.isEmpty then known else insert td (incompleteOf r) known
  if r.tag.isEmpty then k else insert r.tag (incompleteOf r) k

/-- `getFromContainerType`, PARSER:798-946, with at most `fuel` records one inside another. -/
def parseRecord (D : Decls) : Nat → Handler
  | 0, _, _, _, _, _ => .error .deep
  | fuel + 1, known, emb, td, id, c =>
    let r := D.records id
    match find td known with
    | some t => .ok (t, c)
    | none =>
    match find r.tag known with
    | some t => .ok (t, c)
    | none =>
    let key := r.tag ++ "_" ++ td
    match (if key = "_" then none else find key c) with
    | some t => .ok (t, c)
    | none =>
    match (if D.ignored.contains r.tag then .ok (.nil, c)
           else parseFields D (parseRecord D fuel) (knownInside r td known) r.fields c : Res Fields) with
    | .error e => .error e
    | .ok (fs, c) =>
      let t := named td (.comp false r.kw r.tag fs (emb && td.isEmpty && r.inDeclarator) (!r.complete) .nil)
      .ok (t, if key = "_" then c else insert key t c)

/-- The types of return values and parameters, one after the other, PARSER:408, 501. -/
def parseAll (D : Decls) (fuel : Nat) : List Q → Cache → Res (List Ty)
  | [], c => .ok ([], c)
  | q :: qs, c =>
    match parseQ D (parseRecord D fuel) [] false q c with
    | .error e => .error e
    | .ok (t, c) =>
      match parseAll D fuel qs c with
      | .error e => .error e
      | .ok (ts, c) => .ok (t :: ts, c)

end EasyMock.Parser
