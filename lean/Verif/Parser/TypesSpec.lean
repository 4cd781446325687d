import Verif.Parser.Types

/-! # Parser: what it means that a type of the generator describes a type of the program

Nothing here refers to the conversion; of the model only the types, the tables, the values of an enumeration (C43) and the
texts of members (C69) are used. -/

namespace EasyMock.Parser

open EasyMock.Types (Ty Fields Params Methods Kw CT)

/-- The name of the outermost typedef, empty if there is none. -/
def CTy.outer : CTy → String
  | .tdef n (.mk _ _ t) => if n = "" then t.outer else n
  | _ => ""

/-- `t` is `core`, called `name` unless that is empty. -/
def Wraps (name : String) (core t : Ty) : Prop := (name = "" ∧ t = core) ∨ (name ≠ "" ∧ t = .tdef false name core)

/-- The scalar type of the generator for a builtin type.  `signed char` and `bool` have no scalar type of their own (C73). -/
def scalar (charSigned : Bool) : Builtin → CT → Prop
  | .void, c => c = .void
  | .charS, c | .schar, c => c = .char
  | .charU, c => c = if charSigned then .uchar else .char
  | .uchar, c => c = .uchar ∨ (charSigned = false ∧ c = .char)
  | .bool, c => c = .uint
  | .short, c => c = .short
  | .ushort, c => c = .ushort
  | .int, c => c = .int
  | .uint, c => c = .uint
  | .long, c => c = .long
  | .ulong, c => c = .ulong
  | .longLong, c => c = .longLong
  | .ulongLong, c => c = .ulongLong
  | .int128, c => c = .int128
  | .uint128, c => c = .uint128
  | .float, c => c = .float
  | .double, c => c = .double
  | .longDouble, c => c = .longDouble
  | .other, _ => False

/-- A function, a pointer to one, a pointer to such a pointer and so on. -/
inductive PointsToFn : CTy → Prop
  | fn {ret ps b} : PointsToFn (.fn ret ps b)
  | ptr {k vol t} : PointsToFn t → PointsToFn (.ptr (.mk k vol t))
  | tdef {n k vol t} : PointsToFn t → PointsToFn (.tdef n (.mk k vol t))

/-- The text for a member of type `t`: the type part of its declaration (C69), the name of the type if there is none; for a
    pointer to a function which is not called by a typedef, the text before the name. -/
def MemberText (f : FieldD) (t : Ty) (s : String) : Prop :=
  (PointsToFn f.q.ty ∧ (Types.attrs t).typedef = false ∧ s = Types.declPrefix t) ∨
  (¬ (PointsToFn f.q.ty ∧ (Types.attrs t).typedef = false) ∧
    ((declareString true f.text ≠ [] ∧ s.toList = declareString true f.text) ∨
     (declareString true f.text = [] ∧ s = Types.fullName t)))

mutual
/-- `t` describes the type `q`.  A record is described with all its members, or, where its definition is not needed, by its
    keyword and tag.  `value`: an object of the type is needed, not only its address; `strict`: then the members are needed
    as well. -/
inductive Den (D : Decls) (strict : Bool) : Bool → Q → Ty → Prop
  | plain {v vol c t} : DenT D strict v c.outer c.canon t → Den D strict v (.mk false vol c) t
  | const {v vol c t} : DenT D strict v c.outer c.canon t → Den D strict v (.mk true vol c) (.const false t)

/-- `t` describes the type `c` without typedef, which is called `name`. -/
inductive DenT (D : Decls) (strict : Bool) : Bool → String → CTy → Ty → Prop
  | builtin {v name b c naked t} : scalar D.charSigned b c → Wraps name (.ctype c naked false) t →
      DenT D strict v name (.builtin b) t
  | ptr {v name q u t} : Den D strict false q u → Wraps name (.ptr false u) t → DenT D strict v name (.ptr q) t
  | ref {v name q u t} : Den D strict false q u → Wraps name (.ref false u) t → DenT D strict v name (.ref q) t
  | arr {v name n q t} : Den D strict v q t → DenT D strict v name (.arr n q) t
  | enum {v name id t} : Wraps name (.enum false (D.enums id).tag (Types.parseEnum (D.enums id).values)) t →
      DenT D strict v name (.enum id) t
  | fn {v name ret ps b r ts} : Den D strict false ret r → DenPs D strict ps ts →
      DenT D strict v name (.fn ret ps b) (.fn false { name := "" } (Types.declPrefix r) r ts)
  | record {v name id fs emb t} : DenFs D strict (if (D.records id).tag ∈ D.ignored then [] else (D.records id).fields) fs →
      Wraps name (.comp false (D.records id).kw (D.records id).tag fs emb (!(D.records id).complete) .nil) t →
      (emb = true → name = "" ∧ (D.records id).inDeclarator = true) →
      DenT D strict v name (.record id) t
  | tag {v name id} : (D.records id).tag ≠ "" → (strict = true → v = false) →
      DenT D strict v name (.record id) (.incomplete { struct := decide ((D.records id).kw ≠ .union), union := decide ((D.records id).kw = .union) } (D.records id).kw (D.records id).tag)

/-- The parameters of a function type. -/
inductive DenPs (D : Decls) (strict : Bool) : Qs → Params → Prop
  | nil : DenPs D strict .nil .nil
  | cons {q qs t ts} : Den D strict false q t → DenPs D strict qs ts → DenPs D strict (.cons q qs) (.cons (Types.declPrefix t) t "" ts)

/-- The members: in their order, with name, array size or width, and text. -/
inductive DenFs (D : Decls) (strict : Bool) : List FieldD → Fields → Prop
  | nil : DenFs D strict [] .nil
  | field {f fs s t ts} : f.bits = none → Den D strict true f.q t → DenFs D strict fs ts → MemberText f t s →
      DenFs D strict (f :: fs) (.field s t f.name
        (match f.q.ty.canon with | .arr n _ => ((n.getD 0 : Nat) : Int) | _ => -1) ts)
  | bit {f fs t ts w} : f.bits = some w → Den D strict true f.q t → DenFs D strict fs ts →
      DenFs D strict (f :: fs) (.bit (Types.declPrefix t) t f.name w ts)
end

/-! ## The records a type refers to -/

mutual
/-- The records which a type mentions, each with the name of the typedef by which it is mentioned, and whether an object of
    the record is needed. -/
def CTy.uses (v : Bool) (name : String) : CTy → List (Nat × String × Bool)
  | .builtin _ | .enum _ => []
  | .ptr q | .ref q => q.uses false
  | .arr _ q => q.uses v
  | .record id => [(id, name, v)]
  | .fn ret ps _ => ret.uses false ++ ps.uses
  | .tdef n (.mk _ _ t) => t.uses v (if name = "" then n else name)

/-- The same for a qualified type. -/
def Q.uses (v : Bool) : Q → List (Nat × String × Bool)
  | .mk _ _ t => t.uses v ""

/-- The same for parameters. -/
def Qs.uses : Qs → List (Nat × String × Bool)
  | .nil => []
  | .cons q qs => q.uses false ++ qs.uses
end

/-- The record `a` has a member which mentions `b`. -/
def Edge (D : Decls) (a b : Nat) : Prop := ∃ f ∈ (D.records a).fields, ∃ n v, (b, n, v) ∈ f.q.uses true

/-- One or more members lead from `a` to `b`. -/
inductive Path (D : Decls) : Nat → Nat → Prop
  | one {a b} : Edge D a b → Path D a b
  | more {a b c} : Path D a b → Edge D b c → Path D a c

/-- The mentions of a record in a program: in the types of functions and in the members of all records. -/
def Used (D : Decls) (roots : List Q) (id : Nat) (name : String) : Prop :=
  (∃ q ∈ roots, ∃ v, (id, name, v) ∈ q.uses true) ∨ ∃ r, ∃ f ∈ (D.records r).fields, ∃ v, (id, name, v) ∈ f.q.uses true

/-- The names under which records are found by the parser belong to one record each. -/
structure Unambiguous (D : Decls) (U : Nat → String → Prop) : Prop where
  tags : ∀ i n j m, U i n → U j m → (D.records i).tag = (D.records j).tag → (D.records i).tag ≠ "" → i = j
  names : ∀ i n j m, U i n → U j m → n = m → n ≠ "" → i = j
  apart : ∀ i n j m, U i n → U j m → n = (D.records j).tag → n ≠ "" → i = j
  keys : ∀ i n j m, U i n → U j m → (D.records i).tag ++ "_" ++ n = (D.records j).tag ++ "_" ++ m →
    (D.records i).tag ++ "_" ++ n ≠ "_" → i = j ∧ n = m

/-- No record without tag which has a typedef name leads back to itself. -/
def NamedCycles (D : Decls) (U : Nat → String → Prop) : Prop :=
  ∀ id n, U id n → n ≠ "" → (D.records id).tag = "" → ¬ Path D id id

/-- A record with a name which is part of another one does not mention that one in turn. -/
def ValueOrder (D : Decls) : Prop :=
  ∀ a b n, (∃ f ∈ (D.records a).fields, (b, n, true) ∈ f.q.uses true) → ((D.records b).tag ≠ "" ∨ n ≠ "") → ¬ Path D b a ∧ b ≠ a

/-- Records without any name are defined inside the record whose members they are. -/
def Nested (D : Decls) : Prop :=
  ∃ rank : Nat → Nat, ∀ a b, (∃ f ∈ (D.records a).fields, ∃ v, (b, "", v) ∈ f.q.uses true) → (D.records b).tag = "" → rank b < rank a

end EasyMock.Parser
