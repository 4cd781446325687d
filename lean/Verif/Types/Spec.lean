import Verif.Types.Model

/-!
# Types: what equality, hashes and conversions are supposed to mean

Everything here is written from the point of view of C declarations and does not call the
comparison, hashing or conversion functions of the model.
-/

namespace EasyMock.Types

/-! ## Identity of types

Two objects describe the same C type when they are identical after forgetting the data which is
not part of the type: whether a basic type was built from `char`, the keyword remembered by a
forward reference, the names of the parameters of a function type, and everything of a method
except its prototype. -/

mutual
def essence : Ty → Ty
  | .ctype c _ i => .ctype c false i
  | .ptr i t => .ptr i (essence t)
  | .ref i t => .ref i (essence t)
  | .const i t => .const i (essence t)
  | .tdef i n t => .tdef i n (essence t)
  | .enum i n vs => .enum i n vs
  | .comp i kw n fs emb fwd ms => .comp i kw n (essenceFields fs) emb fwd (essenceMethods ms)
  | .incomplete f _ n => .incomplete f .struct n
  | .fn i info s r ps => .fn i info s (essence r) (essenceParams ps)

def essenceFields : Fields → Fields
  | .nil => .nil
  | .field s t n a rest => .field s (essence t) n a (essenceFields rest)
  | .bit s t n k rest => .bit s (essence t) n k (essenceFields rest)

def essenceParams : Params → Params
  | .nil => .nil
  | .cons s t _ rest => .cons s (essence t) "" (essenceParams rest)

def essenceMethods : Methods → Methods
  | .nil => .nil
  | .cons info s r ps parent _ _ rest =>
    .cons { name := prototype info s r ps parent } "" (.ctype .void false false) .nil none false []
      (essenceMethods rest)
end

/-! ## Data covered by the hash

Everything except the names of parameters and the class name of methods. -/

mutual
def hashed : Ty → Ty
  | .ctype c n i => .ctype c n i
  | .ptr i t => .ptr i (hashed t)
  | .ref i t => .ref i (hashed t)
  | .const i t => .const i (hashed t)
  | .tdef i n t => .tdef i n (hashed t)
  | .enum i n vs => .enum i n vs
  | .comp i kw n fs emb fwd ms => .comp i kw n (hashedFields fs) emb fwd (hashedMethods ms)
  | .incomplete f k n => .incomplete f k n
  | .fn i info s r ps => .fn i info s (hashed r) (hashedParams ps)

def hashedFields : Fields → Fields
  | .nil => .nil
  | .field s t n a rest => .field s (hashed t) n a (hashedFields rest)
  | .bit s t n k rest => .bit s (hashed t) n k (hashedFields rest)

def hashedParams : Params → Params
  | .nil => .nil
  | .cons s t _ rest => .cons s (hashed t) "" (hashedParams rest)

def hashedMethods : Methods → Methods
  | .nil => .nil
  | .cons info s r ps _ body ns rest =>
    .cons info s (hashed r) (hashedParams ps) none body ns (hashedMethods rest)
end

/-! ## Types on which equality and hash are meant to agree

`Plain`: every basic type is as constructed (never converted with `setUnsigned`), forward
references are to structs or unions and their flag agrees with the keyword, and there are no
methods. -/

mutual
def Plain : Ty → Prop
  | .ctype c n _ => n = (c == .char)
  | .ptr _ t => Plain t
  | .ref _ t => Plain t
  | .const _ t => Plain t
  | .tdef _ _ t => Plain t
  | .enum _ _ _ => True
  | .comp _ _ _ fs _ _ ms => PlainFields fs ∧ ms = .nil
  | .incomplete f k _ => (f.struct = true ∧ f.union = false ∧ k = .struct) ∨
      (f.struct = false ∧ f.union = true ∧ k = .union)
  | .fn _ _ _ r ps => Plain r ∧ PlainParams ps

def PlainFields : Fields → Prop
  | .nil => True
  | .field _ t _ _ rest => Plain t ∧ PlainFields rest
  | .bit _ t _ _ rest => Plain t ∧ PlainFields rest

def PlainParams : Params → Prop
  | .nil => True
  | .cons _ t _ rest => Plain t ∧ PlainParams rest
end

/-! ## Free hashes

A term records every value fed to `boost::hash_combine`; two different terms have the same hash
only when boost's arithmetic collides. -/

inductive HTerm where
  | zero
  | mix (a b : HTerm)
  | str (s : String)
  | bool (b : Bool)
  | nat (n : Nat)
  | int (i : Int)
  | chr (c : Char)
  deriving DecidableEq, Repr

/-- The hash arithmetic without any collision. -/
def freeHasher : Hasher HTerm where
  zero := .zero
  mix := .mix
  str := .str
  bool := .bool
  nat := .nat
  int := .int
  chr := .chr

/-- The value of a term under given arithmetic. -/
def HTerm.eval {H : Type} (h : Hasher H) : HTerm → H
  | .zero => h.zero
  | .mix a b => h.mix (a.eval h) (b.eval h)
  | .str s => h.str s
  | .bool b => h.bool b
  | .nat n => h.nat n
  | .int i => h.int i
  | .chr c => h.chr c

/-! ## Basic types -/

/-- Width in bits of the integer types (x86-64 Linux). -/
def intWidth : CT → Option Nat
  | .char | .uchar | .schar => some 8
  | .short | .ushort => some 16
  | .int | .uint => some 32
  | .long | .ulong | .longLong | .ulongLong => some 64
  | .int128 | .uint128 => some 128
  | _ => none

/-- Whether an integer type is unsigned; `charSigned`: plain `char` is signed. -/
def isUnsignedInt (charSigned : Bool) : CT → Option Bool
  | .char => some (!charSigned)
  | .uchar | .ushort | .uint | .ulong | .ulongLong | .uint128 => some true
  | .schar | .short | .int | .long | .longLong | .int128 => some false
  | _ => none

/-- Whether the declaration text of the integer type starts with `unsigned`. -/
def startsWithUnsigned (s : String) : Bool := "unsigned ".toList.isPrefixOf s.toList

/-- The objects obtained from a constructor by any sequence of `setUnsigned` calls. -/
inductive ReachableCType (charSigned : Bool) (c₀ : CT) : CTypeObj → Prop where
  | new : ReachableCType charSigned c₀ (CTypeObj.new c₀)
  | set (o : CTypeObj) (val : Bool) : ReachableCType charSigned c₀ o →
      ReachableCType charSigned c₀ (setUnsigned charSigned val o).2

/-! ## Layers of a type -/

/-- The kinds of type which only wrap another one. -/
inductive Layer where
  | ptr | ref | const | tdef
  deriving DecidableEq, Repr

/-- The outermost layer of a type and what it wraps. -/
def outer : Ty → Option (Layer × Ty)
  | .ptr _ t => some (.ptr, t)
  | .ref _ t => some (.ref, t)
  | .const _ t => some (.const, t)
  | .tdef _ _ t => some (.tdef, t)
  | _ => none

/-- `Under ls t u`: `u` is obtained from `t` by removing the layers `ls`, outermost first. -/
inductive Under : List Layer → Ty → Ty → Prop where
  | here (t : Ty) : Under [] t t
  | step (t t' u : Ty) (l : Layer) (ls : List Layer) :
      outer t = some (l, t') → Under ls t' u → Under (l :: ls) t u

mutual
/-- No composite type inside has methods. -/
def NoMethods : Ty → Prop
  | .ptr _ t | .ref _ t | .const _ t | .tdef _ _ t => NoMethods t
  | .ctype .. | .enum .. | .incomplete .. => True
  | .comp _ _ _ fs _ _ ms => NoMethodsFields fs ∧ ms = .nil
  | .fn _ _ _ r ps => NoMethods r ∧ NoMethodsParams ps
def NoMethodsFields : Fields → Prop
  | .nil => True
  | .field _ t _ _ rest => NoMethods t ∧ NoMethodsFields rest
  | .bit _ t _ _ rest => NoMethods t ∧ NoMethodsFields rest
def NoMethodsParams : Params → Prop
  | .nil => True
  | .cons _ t _ rest => NoMethods t ∧ NoMethodsParams rest
end

end EasyMock.Types
