import Verif.Basic
import Verif.StructCmp.CallModel

/-! # StructCmp: generated comparators on objects that cannot be read

A scalar of the type `Option S` is `none` when it lies in memory that does not belong to the process.  Reading it is undefined.
Simplification: `&currentCall_val->f` with a null pointer, the argument of a nested comparator, is not undefined by itself. -/

namespace EasyMock.StructCmp

/-- The condition of a check stops the function when the values differ, and when one of them cannot be read. -/
def stops {S : Type} (neq : S → S → Bool) : Option S → Option S → Bool
  | some c, some e => neq c e
  | _, _ => true

/-- `cmp_<N>` on the objects behind its arguments, GEN:503-552: the members are read without any test of the pointers, in the
    order of the checks, until the first difference (GEN:526, 540). -/
def readCmp {S : Type} (prog : List Comparator) (neq : S → S → Bool) (shown : Option String → S → String) (depth : Nat) (N : String)
    (c e : Val (Option S)) (p : String) : Res (Option String) :=
  match run prog (stops neq) depth N c e p with
  | .equal => .ok none
  | .diff a o f r =>
    match r.cur, r.exp with
    | some x, some y => .ok (some (message shown a o f { param := r.param, field := r.field, idx := r.idx, cur := x, exp := y }))
    | _, _ => .ub
  | .unlinked _ | .confused | .unfinished => .ok (some "")

/-- `cmp_<N>` and `cmp_deref_ptr_<N>` with the bytes of the parameter in the call and in the expectation, GEN:503-559. -/
def readMatcher {S : Type} (prog : List Comparator) (neq : S → S → Bool) (shown : Option String → S → String) (depth : Nat)
    (L : Layout (Option S)) (how : Passed) (id : Nat) (N : String) (m : Mem) (cur exp : EasyMock.Val) (p : String) : Res (Option String) :=
  readCmp prog neq shown depth N (object? L how id m cur) (object? L how id m exp) p

end EasyMock.StructCmp
