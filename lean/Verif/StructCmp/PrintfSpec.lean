import Verif.StructCmp.ProgSpec

/-! # What `printf` does with its arguments

ISO C 7.21.6.1 (conversions), 7.16.1.1 (which argument may be read as which type) and 6.5.2.2p6 (default argument promotions), for
the sizes of x86-64.  Written without regard to /repo.

A format which does not fit its arguments is undefined behaviour: then nothing is printed in the sense of `Prints`.
Simplifications: flags, widths, precisions, `%%` and the other conversions are not represented (no meaning); `%p` takes every
address, and prints it as glibc does; the text of a floating-point number is a parameter. -/

namespace EasyMock.Printf

open EasyMock.Parser (CTy Builtin)

/-- The integer types to which arguments are promoted, without their signedness. -/
inductive Rank where
  | int
  | long
  | longLong
  deriving DecidableEq, Repr

def Rank.bits : Rank → Nat
  | .int => 32
  | .long | .longLong => 64

/-- An argument after the promotions; `R` are the floating-point numbers. -/
inductive Arg (R : Type) where
  | num (signed : Bool) (rank : Rank) (v : Int)
  /-- `__int128`, for which there is no conversion. -/
  | wide (v : Int)
  | real (long : Bool) (x : R)
  | address (a : Nat)
  | string (s : List Char)

/-- A conversion. -/
inductive Conv where
  | char
  | short (signed : Bool)
  | num (signed : Bool) (rank : Rank)
  | real (long : Bool)
  | address
  | string
  deriving DecidableEq, Repr

/-- The conversion behind `%` and what follows it. -/
def conversion : List Char → Option (Conv × List Char)
  | 'c' :: r => some (.char, r)
  | 's' :: r => some (.string, r)
  | 'p' :: r => some (.address, r)
  | 'd' :: r => some (.num true .int, r)
  | 'i' :: r => some (.num true .int, r)
  | 'u' :: r => some (.num false .int, r)
  | 'f' :: r => some (.real false, r)
  | 'h' :: 'd' :: r => some (.short true, r)
  | 'h' :: 'i' :: r => some (.short true, r)
  | 'h' :: 'u' :: r => some (.short false, r)
  | 'l' :: 'd' :: r => some (.num true .long, r)
  | 'l' :: 'i' :: r => some (.num true .long, r)
  | 'l' :: 'u' :: r => some (.num false .long, r)
  | 'l' :: 'f' :: r => some (.real false, r)
  | 'l' :: 'l' :: 'd' :: r => some (.num true .longLong, r)
  | 'l' :: 'l' :: 'i' :: r => some (.num true .longLong, r)
  | 'l' :: 'l' :: 'u' :: r => some (.num false .longLong, r)
  | 'L' :: 'f' :: r => some (.real true, r)
  | _ => none

/-- A number in base 10. -/
def decimal (v : Int) : List Char := if v < 0 then '-' :: Nat.toDigits 10 v.natAbs else Nat.toDigits 10 v.natAbs

/-- An address. -/
def addressText (a : Nat) : List Char := if a = 0 then "(nil)".toList else '0' :: 'x' :: Nat.toDigits 16 a

/-- An argument of the type given first may be read as one of the type given second: the types are the same, or differ in
    their signedness only and the value is in both. -/
def Reads (signed : Bool) (rank : Rank) (signed' : Bool) (rank' : Rank) (v : Int) : Prop :=
  rank = rank' ∧ (signed = signed' ∨ (0 ≤ v ∧ v < 2 ^ (rank.bits - 1)))

/-- The text of one argument. -/
inductive Shows {R : Type} (real : Bool → R → List Char) : Conv → Arg R → List Char → Prop
  | char {s v} : Reads s .int true .int v → Shows real .char (.num s .int v) [Char.ofNat (v % 256).toNat]
  | short {v} : -2 ^ 15 ≤ v → v < 2 ^ 15 → Shows real (.short true) (.num true .int v) (decimal v)
  | ushort {v} : 0 ≤ v → v < 2 ^ 16 → Shows real (.short false) (.num true .int v) (decimal v)
  | num {s k s' k' v} : Reads s k s' k' v → Shows real (.num s' k') (.num s k v) (decimal v)
  | real {l x} : Shows real (.real l) (.real l x) (real l x)
  | address {a} : Shows real .address (.address a) (addressText a)
  | string {s} : Shows real .string (.string s) s

/-- The text which is printed. -/
inductive Prints {R : Type} (real : Bool → R → List Char) : List Char → List (Arg R) → List Char → Prop
  /-- Arguments which are left are ignored. -/
  | done {as} : Prints real [] as []
  | char {c r as o} : c ≠ '%' → Prints real r as o → Prints real (c :: r) as (c :: o)
  | conv {r r' k a as t o} : conversion r = some (k, r') → Shows real k a t → Prints real r' as o →
      Prints real ('%' :: r) (a :: as) (t ++ o)

/-- What is read in a buffer of `n` characters which `snprintf` has filled with the text. -/
def seen (n : Nat) (text : List Char) : List Char := (text.take (n - 1)).takeWhile (· != '\x00')

/-! ## Values of the mocked header's types -/

/-- A value without parts: a number or an address, or a floating-point number. -/
inductive Scalar (R : Type) where
  | num (v : Int)
  | real (x : R)

/-- The least value and the first value behind the greatest one. -/
def range : Builtin → Option (Int × Int)
  | .bool => some (0, 2)
  | .charS | .schar => some (-128, 128)
  | .charU | .uchar => some (0, 256)
  | .short => some (-2 ^ 15, 2 ^ 15)
  | .ushort => some (0, 2 ^ 16)
  | .int => some (-2 ^ 31, 2 ^ 31)
  | .uint => some (0, 2 ^ 32)
  | .long | .longLong => some (-2 ^ 63, 2 ^ 63)
  | .ulong | .ulongLong => some (0, 2 ^ 64)
  | .int128 => some (-2 ^ 127, 2 ^ 127)
  | .uint128 => some (0, 2 ^ 128)
  | _ => none

/-- To which type an argument is promoted (6.3.1.1p2); `none`: there is no conversion for it. -/
def promoted : Builtin → Option (Bool × Rank)
  | .bool | .charS | .schar | .charU | .uchar | .short | .ushort | .int => some (true, .int)
  | .uint => some (false, .int)
  | .long => some (true, .long)
  | .ulong => some (false, .long)
  | .longLong => some (true, .longLong)
  | .ulongLong => some (false, .longLong)
  | _ => none

/-- `a` is the argument for an object of the canonical type `c` with the value `v`; `under` is the type of an enumeration, which
    the compiler chooses (6.7.2.2p4) or a C++ program says. -/
inductive Passes {R : Type} (under : Nat → Bool × Rank) : CTy → Scalar R → Arg R → Prop
  | num {b lo hi s k v} : range b = some (lo, hi) → lo ≤ v → v < hi → promoted b = some (s, k) →
      Passes under (.builtin b) (.num v) (.num s k v)
  | wide {b lo hi v} : b = .int128 ∨ b = .uint128 → range b = some (lo, hi) → lo ≤ v → v < hi →
      Passes under (.builtin b) (.num v) (.wide v)
  | enum {id s k v} : under id = (s, k) → (s = true → -2 ^ (k.bits - 1) ≤ v ∧ v < 2 ^ (k.bits - 1)) →
      (s = false → 0 ≤ v ∧ v < 2 ^ k.bits) → Passes under (.enum id) (.num v) (.num s k v)
  | float {x} : Passes under (.builtin .float) (.real x) (.real false x)
  | double {x} : Passes under (.builtin .double) (.real x) (.real false x)
  | longDouble {x} : Passes under (.builtin .longDouble) (.real x) (.real true x)
  | address {q a} : Passes under (.ptr q) (.num (Int.ofNat a)) (.address a)

/-- A character type. -/
def charType : Builtin → Bool
  | .charS | .schar | .charU | .uchar => true
  | _ => false

/-- The text of a value as a test should see it: numbers in base 10, characters as themselves, addresses in base 16. -/
def textOf {R : Type} (real : Bool → R → List Char) : CTy → Scalar R → List Char
  | .builtin b, .num v => if charType b then [Char.ofNat (v % 256).toNat] else decimal v
  | .builtin b, .real x => real (b == .longDouble) x
  | .ptr _, .num v => addressText v.toNat
  | _, .num v => decimal v
  | _, .real x => real false x

end EasyMock.Printf
