import Verif.Framework.Model

/-!
# Model of the built-in matchers

`src/easyMockFramework/src/easyMock_matcher.cpp` (all functions) and the template `cmp<T>` of
`src/easyMockFramework/include/easyMock.h:213-225`.

Values are the bytes of the compared objects (little endian, the sizes of x86-64). Texts are byte lists. `snprintf` is
libc's: the text is cut to fit, a terminator is always written. Simplifications: floating-point values are an abstract
type with an equality test and a printed form; `%p` prints as glibc does.
-/

namespace EasyMock.Matcher

abbrev Bytes := List UInt8

/-- A string literal of the code. -/
def lit (s : String) : Bytes := s.toList.map fun c => UInt8.ofNat c.toNat

/-- `EASYMOCK_MAX_CMP_ERR`, easyMock.h:25. -/
def maxCmpErr : Nat := 256

/-- `snprintf(buf, n, "%s", text)` of libc for `n > 0`: undefined when the buffer is smaller than what is written. -/
def snprintf (buf : Bytes) (n : Nat) (text : Bytes) : Res Bytes :=
  let w := text.take (n - 1) ++ [0]
  if w.length ≤ buf.length then .ok (w ++ buf.drop w.length) else .ub

/-- What a reader of a C string sees. -/
def cstr (b : Bytes) : Bytes := b.takeWhile (· != 0)

/-! ## Loading and printing integers -/

/-- The unsigned number stored in little endian order. -/
def loadU : Bytes → Nat
  | [] => 0
  | b :: r => b.toNat + 256 * loadU r

/-- The number stored in an object of the given size and signedness (two's complement). -/
def load (signed : Bool) (size : Nat) (bs : Bytes) : Int :=
  if signed = true ∧ 2 ^ (8 * size - 1) ≤ loadU bs then (loadU bs : Int) - 2 ^ (8 * size) else loadU bs

/-- The digits of a number in base 10 or 16. -/
def digits (b n : Nat) : Bytes := (Nat.toDigits b n).map fun c => UInt8.ofNat c.toNat

/-- `%d`, `%u` and their variants. -/
def fmtDec (v : Int) : Bytes := if v < 0 then lit "-" ++ digits 10 v.natAbs else digits 10 v.natAbs

/-- `%c`: the value converted to `unsigned char`. -/
def fmtChar (v : Int) : Bytes := [UInt8.ofNat (v % 256).toNat]

/-- `%p` as printed by glibc. -/
def fmtPtr (v : Int) : Bytes := if v = 0 then lit "(nil)" else lit "0x" ++ digits 16 v.natAbs

/-- `%#x`: no prefix for 0. -/
def fmtHash (n : Nat) : Bytes := if n = 0 then lit "0" else lit "0x" ++ digits 16 n

/-! ## The macro `IMPLEMENT_MATCHER` -/

/-- The text of easyMock_matcher.cpp:16 (also 53, 71, 88 and easyMock.h:220-222). -/
def message (name cur exp : Bytes) : Bytes :=
  lit "Parameter '" ++ name ++ lit "' has value '" ++ cur ++ lit "', was expecting '" ++ exp ++ lit "'"

/-- `IMPLEMENT_MATCHER`, easyMock_matcher.cpp:7-18, for a type with values `α`. -/
def implementMatcher {α : Type} (val : Bytes → α) (eq : α → α → Bool) (fmt : α → Bytes)
    (cur exp name buf : Bytes) : Res (Int × Bytes) :=
  let c := val cur
  let e := val exp
  if eq c e then .ok (0, buf)
  else do
    let buf' ← snprintf buf maxCmpErr (message name (fmt c) (fmt e))
    .ok (-1, buf')

/-- The integer instances, easyMock_matcher.cpp:29-38 and 42. -/
inductive Scalar where
  | char | u_char | short | u_short | int | u_int | long | u_long | long_long | u_long_long | pointer
  deriving DecidableEq, Repr

namespace Scalar

def size : Scalar → Nat
  | char | u_char => 1
  | short | u_short => 2
  | int | u_int => 4
  | long | u_long | long_long | u_long_long | pointer => 8

def signed : Scalar → Bool
  | char | short | int | long | long_long => true
  | _ => false

/-- The print formats, third argument of the macro. -/
def fmt : Scalar → Int → Bytes
  | char | u_char => fmtChar
  | pointer => fmtPtr
  | _ => fmtDec

end Scalar

/-- `cmp_char`, ..., `cmp_u_long_long`, `cmp_pointer`. -/
def cmpScalar (t : Scalar) (cur exp name buf : Bytes) : Res (Int × Bytes) :=
  implementMatcher (load t.signed t.size) (fun a b => decide (a = b)) t.fmt cur exp name buf

/-- `cmp_float`, `cmp_double`, `cmp_long_double`, easyMock_matcher.cpp:39-41. `eq` need not be reflexive. -/
def cmpFloat {α : Type} (val : Bytes → α) (eq : α → α → Bool) (fmt : α → Bytes) (cur exp name buf : Bytes) : Res (Int × Bytes) :=
  implementMatcher val eq fmt cur exp name buf

/-- Reading an object from memory; undefined on unmapped memory. -/
def readBytes (m : Mem) (a n : Nat) : Res Bytes :=
  match n with
  | 0 => .ok []
  | n + 1 =>
    match m a with
    | none => .ub
    | some b => do
      let r ← readBytes m (a + 1) n
      .ok (b :: r)

/-- `cmp_deref_ptr_<type>`, easyMock_matcher.cpp:20-25: the objects are pointers to the values. -/
def cmpDerefPtr (m : Mem) (t : Scalar) (cur exp name buf : Bytes) : Res (Int × Bytes) := do
  let c ← readBytes m (loadU cur) t.size
  let e ← readBytes m (loadU exp) t.size
  cmpScalar t c e name buf

/-! ## 128-bit matchers -/

/-- The printed form of easyMock_matcher.cpp:66-72 and 83-89: the two halves, each without leading zeros. -/
def fmt128 (v : Int) : Bytes :=
  let low := (v % 2 ^ 64).toNat
  let high := (v / 2 ^ 64 % 2 ^ 64).toNat
  fmtHash high ++ digits 16 low

/-- `cmp_int128` (58-74) and `cmp_uint128` (75-91). -/
def cmp128 (signed : Bool) (cur exp name buf : Bytes) : Res (Int × Bytes) :=
  let c := load signed 16 cur
  let e := load signed 16 exp
  if c = e then .ok (0, buf)
  else do
    let buf' ← snprintf buf maxCmpErr (message name (fmt128 c) (fmt128 e))
    .ok (-1, buf')

/-! ## Strings -/

/-- libc `strcmp` on memory, as "are they equal"; `fuel` bounds the address space. -/
def strEq (m : Mem) : Nat → Nat → Nat → Res Bool
  | 0, _, _ => .ub
  | fuel + 1, a, b =>
    match m a, m b with
    | some x, some y => if x = y then (if x = 0 then .ok true else strEq m fuel (a + 1) (b + 1)) else .ok false
    | _, _ => .ub

/-- The C string at an address (`%s`). -/
def strAt (m : Mem) : Nat → Nat → Res Bytes
  | 0, _ => .ub
  | fuel + 1, a =>
    match m a with
    | none => .ub
    | some x => if x = 0 then .ok [] else do
      let r ← strAt m fuel (a + 1)
      .ok (x :: r)

/-- Size of the address space. -/
def addrSpace : Nat := 2 ^ 64

/-- `cmp_str`, easyMock_matcher.cpp:44-56. -/
def cmpStr (m : Mem) (cur exp name buf : Bytes) : Res (Int × Bytes) := do
  let eq ← strEq m addrSpace (loadU cur) (loadU exp)
  if eq then .ok (0, buf)
  else do
    let c ← strAt m addrSpace (loadU cur)
    let e ← strAt m addrSpace (loadU exp)
    let buf' ← snprintf buf maxCmpErr (message name c e)
    .ok (-1, buf')

/-! ## C++ template -/

/-- `EasyMock::cmp<T>`, easyMock.h:213-225: `true` is a rejection; the message stream is unbounded. -/
def cmpCpp {α : Type} (eq : α → α → Bool) (put : α → Bytes) (cur exp : α) (name stream : Bytes) : Bool × Bytes :=
  if eq cur exp then (false, stream)
  else (true, stream ++ message name (put cur) (put exp))

/-! ## Use by a generated mock -/

/-- Bytes as text. -/
def toText (b : Bytes) : String := String.ofList (b.map fun c => Char.ofNat c.toNat)

/-- The call of a C matcher in a mock, GEN:646-661: a zeroed buffer of 256 bytes, and the message is read as a C
string. -/
def asMatcher (cmp : Bytes → Bytes → Bytes → Bytes → Res (Int × Bytes)) : EasyMock.Matcher := fun _ cur exp name =>
  match cmp cur exp (lit name) (List.replicate maxCmpErr 0) with
  | .ok (rv, buf) => if rv ≠ 0 then some (toText (cstr buf)) else none
  | _ => none

end EasyMock.Matcher
