import Verif.Matcher.Model
import Verif.StructCmp.Model

/-! # StructCmp: the generated comparators as matchers of the framework

Which bytes of an object belong to which member is up to the compiler: a layout is any function from bytes to the tree of
values.  Simplification: the message is not cut at 255 characters (`easyMock_snprintf`, see C26). -/

namespace EasyMock.StructCmp

/-- The object of a record whose bytes are given, by their offset. -/
abbrev Layout (S : Type) := Nat → (Nat → Option UInt8) → Val S

/-- How a parameter leads to an object: it is the object, or a pointer to it. -/
inductive Passed where
  | value
  | pointer
  deriving DecidableEq

/-- The object of the record `id` to which a parameter with the bytes `b` leads: `currentCall_val` in `cmp_<type>`, GEN:514-517,
    which is called with the address of the parameter (GEN:667); and in `cmp_deref_ptr_<type>`, GEN:553-559. -/
def object? {S : Type} (L : Layout S) (how : Passed) (id : Nat) (m : Mem) (b : EasyMock.Val) : Val S :=
  match how with
  | .value => L id fun i => b[i]?
  | .pointer => L id fun i => m (Matcher.loadU b + i)

/-- `cmp_<N>` and `cmp_deref_ptr_<N>` as matchers, GEN:503-559; what they do besides accepting and rejecting is not of
    interest here (it does not happen, C95). -/
def cmpMatcher {S : Type} (prog : List Comparator) (neq : S → S → Bool) (shown : Option String → S → String) (depth : Nat) (L : Layout S)
    (how : Passed) (id : Nat) (N : String) : Matcher := fun m cur exp p =>
  match run prog neq depth N (object? L how id m cur) (object? L how id m exp) p with
  | .equal => none
  | .diff a o f r => some (message shown a o f r)
  | .unlinked _ | .confused | .unfinished => some ""

end EasyMock.StructCmp
