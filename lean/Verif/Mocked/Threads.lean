import Verif.Mocked.Model

/-! # Calls of a C mock by several threads

The part of a mock that works on the `MockedFunction`, CodeGeneratorCTemplate.cpp:624-636 with MockedFunction.c:52-82 and
126-147, cut at every access to the shared structure.  Between two accesses another thread may run.  Every thread makes one
call; a thread with several calls is several threads here, one after the other.

Simplification: the accesses of all threads take place one after the other, in the order of a schedule.  For the C standard any
two of these accesses are a data race when no lock orders them, which is undefined; so this is the most benign reading.  What the
mock does with the data it got (matchers, order of calls, errors) is not part of this. -/

namespace EasyMock.Threads

/-- What a call gets: an expectation; nothing, it is reported as unexpected (GEN:624-628); or nothing although it was expected, it is
    reported as a bug of EasyMock (GEN:632-636). -/
inductive Result (δ : Type) where
  | served (d : δ)
  | unexpected
  | bug
  deriving DecidableEq

/-- Where a thread is in its call. -/
inductive Phase (δ : Type) where
  /-- before reading `mf->actualCall` in `mf->actualCall++`, MockedFunction.c:76 -/
  | start
  /-- before writing it -/
  | write (r : Nat)
  /-- before reading it in `(mf->actualCall - 1) >= mf->expectedCall`, MockedFunction.c:77 -/
  | compare
  /-- before reading `mf->expectedCall` there -/
  | limit (a : Nat)
  /-- before reading `mf->mockedData[i]` in `MockedFunction_isEmpty`, MockedFunction.c:129-135 -/
  | scan (i : Nat)
  /-- before reading `mf->actualCall` in `MockedFunction_getCurrentIdx`, MockedFunction.c:141 -/
  | zero
  /-- before reading it again, MockedFunction.c:146 -/
  | index
  /-- before reading `mf->mockedData[i]` in the test for `NULL`, MockedFunction.c:59 -/
  | test (i : Nat)
  /-- before `memcpy`, MockedFunction.c:64 -/
  | copy (i : Nat)
  /-- before `free`, MockedFunction.c:65 -/
  | free (i : Nat) (d : δ)
  /-- before `mf->mockedData[i] = NULL`, MockedFunction.c:66 -/
  | clear (i : Nat) (d : δ)
  /-- the mock has what it needs -/
  | done (r : Result δ)

/-- The shared state, the phases of the threads, and the calls which are done, in this order. -/
structure St (δ : Type) where
  heap : DHeap δ
  mock : CMock
  phase : Nat → Phase δ
  log : List (Nat × Result δ) := []

variable {δ : Type}

/-- One access by a thread in the given phase, see `Phase`. -/
def access (h : DHeap δ) (m : CMock) : Phase δ → Res (DHeap δ × CMock × Phase δ)
  | .start => .ok (h, m, .write m.actual)
  | .write r => .ok (h, { m with actual := inc32 r }, .compare)
  | .compare => .ok (h, m, .limit m.actual)
  | .limit a => .ok (h, m, if dec32 a ≥ m.expected then .done .unexpected else .scan 0)
  | .scan i =>
    if i < maxMockedCall then
      match m.slots[i]? with
      | none => .ub
      | some none => .ok (h, m, .scan (i + 1))
      | some (some _) => .ok (h, m, .zero)
    else .ok (h, m, .done .bug)
  | .zero => if m.actual = 0 then .exit else .ok (h, m, .index)
  | .index => .ok (h, m, .test (dec32 m.actual))
  | .test i =>
    match m.slots[i]? with
    | none => .ub
    | some none => .exit
    | some (some _) => .ok (h, m, .copy i)
  | .copy i =>
    match m.slots[i]? with
    | some (some p) =>
      match h.blocks p with
      | some d => .ok (h, m, .free i d)
      | none => .ub
    | _ => .ub
  | .free i d =>
    match m.slots[i]? with
    | some (some p) => do
      let h' ← h.free p
      .ok (h', m, .clear i d)
    | some none => .ok (h, m, .clear i d)
    | none => .ub
  | .clear i d => .ok (h, { m with slots := m.slots.set i none }, .done (.served d))
  | .done r => .ok (h, m, .done r)

/-- The thread `t` makes its next access. -/
def tick (s : St δ) (t : Nat) : Res (St δ) := do
  let (h, m, p) ← access s.heap s.mock (s.phase t)
  .ok { heap := h, mock := m, phase := fun u => if u = t then p else s.phase u,
        log := match s.phase t, p with
          | .done _, _ => s.log
          | _, .done r => s.log ++ [(t, r)]
          | _, _ => s.log }

/-- The threads run in the order of the schedule. -/
def exec (s : St δ) : List Nat → Res (St δ)
  | [] => .ok s
  | t :: ts => do
    let s' ← tick s t
    exec s' ts

/-- The expectations of a test, registered before the threads start: `MockedFunction_addExpectedCall`, MockedFunction.c:30-50. -/
def register (h : DHeap δ) (m : CMock) : List δ → Res (DHeap δ × CMock)
  | [] => .ok (h, m)
  | d :: ds => do
    let (h', m') ← m.addExpectedCall true h d
    register h' m' ds

end EasyMock.Threads
