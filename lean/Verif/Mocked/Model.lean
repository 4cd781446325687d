import Verif.Basic

/-!
# Model of the two `MockedFunction` implementations

* C: `src/easyMockFramework/src/MockedFunction.c` – a fixed array of owned heap copies.
* C++: the template `MockedCppFunction` of `src/easyMockFramework/include/MockedFunction.h`.

Counters are `unsigned int` (32 bits): numbers below 2^32 with wrapping arithmetic.
Simplification: a heap block holds one value of the mock's data type `δ` (the code copies `dataSize`
bytes with `memcpy`); `fprintf(stderr, …)` before `exit(1)` is not modelled. `malloc` returns a fresh
block or fails; on failure the C code exits.
-/

namespace EasyMock

/-- `EASYMOCK_MAX_MOCKED_CALL`, MockedFunction.h:151-153. -/
def maxMockedCall : Nat := 256

/-- `unsigned int` increment: 2^32 - 1 becomes 0. -/
def inc32 (n : Nat) : Nat := if n + 1 = 2 ^ 32 then 0 else n + 1

/-- `unsigned int` decrement: 0 becomes 2^32 - 1. -/
def dec32 (n : Nat) : Nat := if n = 0 then 2 ^ 32 - 1 else n - 1

/-- The heap used for the copies of expectations. -/
structure DHeap (δ : Type) where
  blocks : Nat → Option δ
  next : Nat

namespace DHeap
variable {δ : Type}

/-- `malloc` + `memcpy` of one item (MockedFunction.c:42,48). -/
def alloc (h : DHeap δ) (d : δ) : DHeap δ × Nat :=
  (⟨fun q => if q = h.next then some d else h.blocks q, h.next + 1⟩, h.next)

/-- `free(p)`: undefined unless the block is live. -/
def free (h : DHeap δ) (p : Nat) : Res (DHeap δ) :=
  match h.blocks p with
  | none => .ub
  | some _ => .ok { h with blocks := fun q => if q = p then none else h.blocks q }

end DHeap

/-! ## C implementation -/

/-- The struct `MockedFunction`, MockedFunction.h:158-185 (`name` and `dataSize` are static data of the
mock, kept in the configuration). A slot is `NULL` or a block. -/
structure CMock where
  expected : Nat
  actual : Nat
  slots : List (Option Nat)
  deriving DecidableEq, Repr

namespace CMock
variable {δ : Type}

/-- `MockedFunction_init`, MockedFunction.c:17-28. -/
def init : CMock := ⟨0, 0, List.replicate maxMockedCall none⟩

/-- `MockedFunction_addExpectedCall`, MockedFunction.c:30-50. -/
def addExpectedCall (alloc : Bool) (h : DHeap δ) (m : CMock) (d : δ) : Res (DHeap δ × CMock) :=
  if m.expected = maxMockedCall then .exit                 -- line 32
  else match m.slots[m.expected]? with
    | none => .ub                                          -- outside the array
    | some (some _) => .exit                               -- line 37
    | some none =>
      if alloc then
        let (h', p) := h.alloc d
        .ok (h', { m with expected := inc32 m.expected, slots := m.slots.set m.expected (some p) })
      else .exit                                           -- line 43

/-- `MockedFunction_isEmpty`, MockedFunction.c:126-137. -/
def isEmpty (m : CMock) : Bool := m.slots.all Option.isNone

/-- `MockedFunction_getCurrentIdx`, MockedFunction.c:139-147. -/
def getCurrentIdx (m : CMock) : Res Nat := if m.actual = 0 then .exit else .ok (dec32 m.actual)

/-- `MockedFunction_getCurrentCallParam`, MockedFunction.c:52-68. -/
def getCurrentCallParam (h : DHeap δ) (m : CMock) : Res (DHeap δ × CMock × Option δ) :=
  if m.isEmpty then .ok (h, m, none)
  else do
    let idx ← m.getCurrentIdx
    match m.slots[idx]? with
    | none => .ub                                          -- outside the array
    | some none => .exit                                   -- line 59
    | some (some p) =>
      match h.blocks p with
      | none => .ub
      | some d =>
        let h' ← h.free p
        .ok (h', { m with slots := m.slots.set idx none }, some d)

/-- `MockedFunction_addActualCall`, MockedFunction.c:70-82. -/
def addActualCall (m : CMock) : CMock × Bool :=
  let m' := { m with actual := inc32 m.actual }
  (m', if dec32 m'.actual ≥ m'.expected then false else true)

/-- The loop of `MockedFunction_emptyDataQueue`, MockedFunction.c:113-124. -/
def emptySlots (h : DHeap δ) : List (Option Nat) → Res (DHeap δ × List (Option Nat))
  | [] => .ok (h, [])
  | none :: r => do
    let (h', r') ← emptySlots h r
    .ok (h', none :: r')
  | some p :: r => do
    let h1 ← h.free p
    let (h', r') ← emptySlots h1 r
    .ok (h', none :: r')

/-- `MockedFunction_reset`, MockedFunction.c:94-99. -/
def reset (h : DHeap δ) (m : CMock) : Res (DHeap δ × CMock) := do
  let (h', sl) ← emptySlots h m.slots
  .ok (h', ⟨0, 0, sl⟩)

end CMock

/-! ## C++ implementation -/

/-- The struct `MockedCppFunction<T>`, MockedFunction.h:24-52. -/
structure CppMock (δ : Type) where
  expected : Nat
  actual : Nat
  data : List δ

namespace CppMock
variable {δ : Type}

/-- `MockedFunction_init`, MockedFunction.h:65-73. -/
def init : CppMock δ := ⟨0, 0, []⟩

/-- `MockedFunction_addExpectedCall`, MockedFunction.h:75-80. -/
def addExpectedCall (m : CppMock δ) (d : δ) : CppMock δ :=
  { m with expected := inc32 m.expected, data := m.data ++ [d] }

/-- `MockedFunction_getCurrentIdx`, MockedFunction.h:54-63. -/
def getCurrentIdx (m : CppMock δ) : Res Nat := if m.actual = 0 then .exit else .ok (dec32 m.actual)

/-- `MockedFunction_getCurrentCallParam`, MockedFunction.h:82-98. -/
def getCurrentCallParam (m : CppMock δ) : Res (Option δ) :=
  if m.data.isEmpty then .ok none
  else do
    let idx ← m.getCurrentIdx
    if idx > m.expected then .exit
    else match m.data[idx]? with
      | none => .ub
      | some d => .ok (some d)

/-- `MockedFunction_addActualCall`, MockedFunction.h:106-119. -/
def addActualCall (m : CppMock δ) : CppMock δ × Bool :=
  let m' := { m with actual := inc32 m.actual }
  (m', if dec32 m'.actual ≥ m'.expected then false else true)

/-- `MockedFunction_reset`, MockedFunction.h:127-133. -/
def reset (_m : CppMock δ) : CppMock δ := ⟨0, 0, []⟩

end CppMock

/-! ## Either implementation

Which one a generated file uses is decided by its sections `C_ONLY_SECTION`/`CPP_ONLY_SECTION`
(CodeGeneratorCTemplate.cpp:599-600). -/

inductive Mock (δ : Type) where
  | c (m : CMock)
  | cpp (m : CppMock δ)

namespace Mock
variable {δ : Type}

def addExpectedCall (alloc : Bool) (h : DHeap δ) (m : Mock δ) (d : δ) : Res (DHeap δ × Mock δ) :=
  match m with
  | .c m => do
    let (h', m') ← m.addExpectedCall alloc h d
    .ok (h', .c m')
  | .cpp m => .ok (h, .cpp (m.addExpectedCall d))

def getCurrentCallParam (h : DHeap δ) (m : Mock δ) : Res (DHeap δ × Mock δ × Option δ) :=
  match m with
  | .c m => do
    let (h', m', d) ← m.getCurrentCallParam h
    .ok (h', .c m', d)
  | .cpp m => do
    let d ← m.getCurrentCallParam
    .ok (h, .cpp m, d)

def addActualCall (m : Mock δ) : Mock δ × Bool :=
  match m with
  | .c m => (.c m.addActualCall.1, m.addActualCall.2)
  | .cpp m => (.cpp m.addActualCall.1, m.addActualCall.2)

/-- `MockedFunction_getNbActualCall`, MockedFunction.c:84-87, MockedFunction.h:121-125. -/
def getNbActualCall : Mock δ → Nat
  | .c m => m.actual
  | .cpp m => m.actual

/-- The counter of expectations, read by `MockedFunction_verify`, MockedFunction.c:101-111. -/
def getNbExpectedCall : Mock δ → Nat
  | .c m => m.expected
  | .cpp m => m.expected

def reset (h : DHeap δ) (m : Mock δ) : Res (DHeap δ × Mock δ) :=
  match m with
  | .c m => do
    let (h', m') ← m.reset h
    .ok (h', .c m')
  | .cpp m => .ok (h, .cpp m.reset)

end Mock

end EasyMock
