import Verif.Mocked.Model

/-!
# Model of the framework and of the generated mocks

* `src/easyMockFramework/src/easyMock.cpp`: class `EasyMock` (lines 42-230) and its C API (376-455).
* The code generated for a mocked function:
  `src/easyMockGenerate/src/CTemplateGenerator/CodeGeneratorCTemplate.cpp` (below: GEN), template lines 563-791.

Simplifications (all of them):
* errors are kept as structured data and rendered when read (`Err.render`); `vsnprintf` itself is not modelled;
* the text of a back trace is an opaque string supplied with the call;
* values are byte lists; the C++ value-initialised dummy result is the all-zero value of the same size;
* the pointer arguments that belong to output parameters are given separately (`Call.outs`) from the argument values
  handed to matchers;
* a matcher is a function of the memory, the two values and the parameter name: it neither writes memory nor calls the
  framework (`Framework/Nested` has matchers that call mocks);
* `cstring` is used through its proved behaviour (`C24_compare_const_char`): comparison with a C string is equality;
* mock files are numbered in the order of the addresses of their register structs, the order in which `std::map` iterates.
-/

namespace EasyMock

abbrev Val := List UInt8
abbrev Addr := Nat

/-- Caller memory: `none` is an unmapped byte. -/
abbrev Mem := Addr → Option UInt8

/-- A matcher (`EasyMock_Matcher`, `EasyMock_Matcher_Cpp`): current value, expected value, parameter name.
`some msg` is a rejection with that message. -/
abbrev Matcher := Mem → Val → Val → String → Option String

structure ParamExp where
  value : Val
  matcher : Option Matcher

structure OutExp where
  /-- The configured buffer, 0 is `NULL`. -/
  src : Addr
  /-- The size given by the user; used only for `void *` and incomplete pointees. -/
  size : Nat
  deriving DecidableEq, Repr

/-- The data struct generated for a mocked function, GEN:564-595. -/
structure Exp where
  inst : Addr := 0
  params : List ParamExp := []
  ret : Val := []
  outs : List OutExp := []

/-- One call of a mocked function by the code under test. -/
structure Call where
  this : Addr := 0
  args : List Val := []
  outs : List Addr := []
  /-- Text that `append_backtrace` would add. -/
  bt : String := ""
  deriving DecidableEq, Repr

/-- Static data of a mocked function, fixed when the mock was generated. -/
structure FnCfg where
  /-- The full prototype passed to `MockedFunction_init`, GEN:763. -/
  name : String
  /-- The bare function name, used in the text of GEN:626. -/
  shortName : String
  /-- `none` for `void`, otherwise the size of the result. -/
  ret : Option Nat := none
  isC : Bool := true
  isMember : Bool := false
  paramNames : List String := []
  /-- Output parameters: `some (sizeof *p)`, or `none` when the user gives the size (GEN:692). -/
  outs : List (Option Nat) := []

structure FnId where
  file : Nat
  idx : Nat
  deriving DecidableEq, Repr

structure Cfg where
  files : List (List FnCfg)
  /-- `BACKTRACE_SUPPORT` of the framework library. -/
  backtrace : Bool := true

namespace Cfg

def fn? (cfg : Cfg) (f : FnId) : Option FnCfg := (cfg.files[f.file]?).bind (·[f.idx]?)

/-- The mocked functions of one file, in the order of the generated code. -/
def fnsOf (cfg : Cfg) (i : Nat) : List FnId :=
  match cfg.files[i]? with
  | none => []
  | some fns => (List.range fns.length).map (FnId.mk i)

def name (cfg : Cfg) (f : FnId) : String := match cfg.fn? f with | some fc => fc.name | none => ""

end Cfg

/-! ## Errors -/

inductive ErrKind where
  | unexpected (name : String) (returning : Option String)
  | noData
  | badInstance (ord : Nat) (name : String) (expected got : Addr)
  | mismatch (ord : Nat) (name : String) (msg : String)
  | order (got expected : String)
  | count (name : String) (expected actual : Nat)
  | noCall
  deriving DecidableEq, Repr

structure Err where
  kind : ErrKind
  /-- The back trace, when one was requested. -/
  bt : Option String
  deriving DecidableEq, Repr

/-- `%d` applied to an `unsigned int`. -/
def fmtD (n : Nat) : String := if n < 2 ^ 31 then toString n else "-" ++ toString (2 ^ 32 - n)

/-- A pointer streamed to an `ostream`: its text is opaque but determined by the address. -/
def fmtPtr (a : Addr) : String := "0x" ++ String.ofList (Nat.toDigits 16 a)

/-- The texts of GEN:626, 633, 641-642, 657/671, 685, MockedFunction.c:105-107 and easyMock.cpp:158. -/
def ErrKind.render : ErrKind → String
  | .unexpected n r => "Error : unexpected call of '" ++ n ++ "'." ++
      (match r with | some f => " " ++ f ++ " is returning a random value." | none => "")
  | .noData => "BUG IN EASYMOCK: CONTACT THE DEVELOPER TO FIX THIS"
  | .badInstance k n e g => "Error : at call " ++ fmtD k ++ " of '" ++ n ++ "': " ++
      "Expecting this object being " ++ fmtPtr e ++ ", got this = " ++ fmtPtr g ++ "\n"
  | .mismatch k n m => "Error : at call " ++ fmtD k ++ " of '" ++ n ++ "': " ++ m
  | .order g e => "Error : got call to '" ++ g ++ "',  but was expecting call to '" ++ e ++ "'"
  | .count n e a => "Error: For function '" ++ n ++ "' bad number of call. Expected " ++ fmtD e ++ ", got " ++ fmtD a
  | .noCall => "BUG IN EASYMOCK. No more current call"

/-- `EasyMock::addError`, easyMock.cpp:85-93. -/
def Err.render (e : Err) : String :=
  match e.bt with
  | none => e.kind.render
  | some b => e.kind.render ++ "\n\r" ++ b

/-! ## State -/

structure State where
  /-- `m_checkCallsOrder` -/
  order : Bool
  /-- `m_printCallStack` -/
  print : Bool
  /-- Keys of `m_registeredMock`. -/
  reg : Nat → Bool
  /-- Mock files present in the process. -/
  loaded : Nat → Bool
  /-- `m_fifoCall` -/
  fifo : List String
  /-- `m_error` -/
  errs : List Err
  mocks : FnId → Mock Exp
  heap : DHeap Exp
  mem : Mem

/-- A mock before its constructor ran: zero-initialised static storage. -/
def zeroMock (cfg : Cfg) (f : FnId) : Mock Exp :=
  match cfg.fn? f with
  | some fc => if fc.isC then .c CMock.init else .cpp CppMock.init
  | none => .cpp CppMock.init

/-- The `EasyMock` constructor, easyMock.cpp:46-52, before any mock file is loaded. -/
def State.initial (cfg : Cfg) (mem : Mem) : State :=
  { order := false, print := true, reg := fun _ => false, loaded := fun _ => false, fifo := [], errs := [],
    mocks := zeroMock cfg, heap := ⟨fun _ => none, 0⟩, mem := mem }

namespace State

def setMock (s : State) (f : FnId) (m : Mock Exp) : State :=
  { s with mocks := fun g => if g = f then m else s.mocks g }

/-- `easyMock_addError` / `EasyMock::addError`, easyMock.cpp:85-93 and 402-416. -/
def addError (s : State) (callstack : Bool) (bt : String) (k : ErrKind) : State :=
  { s with errs := s.errs ++ [⟨k, if callstack then some bt else none⟩] }

/-- `EasyMock::addCall`, easyMock.cpp:134-137. -/
def addCall (s : State) (n : String) : State := { s with fifo := s.fifo ++ [n] }

/-- `EasyMock::popCurrentCall`, easyMock.cpp:154-164. -/
def popCurrentCall (s : State) : State × String :=
  match s.fifo with
  | [] => (s.addError false "" .noCall, "NoMoreCall")
  | n :: r => ({ s with fifo := r }, n)

/-- `EasyMock::printCallStack`, easyMock.cpp:171-178. -/
def printCallStack (cfg : Cfg) (s : State) : Bool := if cfg.backtrace then s.print else false

/-- `EasyMock::setPrintCallStack`, easyMock.cpp:180-187. -/
def setPrintCallStack (cfg : Cfg) (s : State) (b : Bool) : State :=
  if cfg.backtrace then { s with print := b } else s

/-- `EasyMock::registerMock`, easyMock.cpp:54-57. -/
def registerMock (s : State) (i : Nat) : State := { s with reg := fun j => if j = i then true else s.reg j }

/-- `EasyMock::unregisterMock`, easyMock.cpp:59-62. -/
def unregisterMock (s : State) (i : Nat) : State := { s with reg := fun j => if j = i then false else s.reg j }

end State

/-! ## The generated `Expect` functions, GEN:701-748 -/

/-- The common static function, GEN:719-748: store the data, then record the call in the order queue. -/
def expectFn (alloc : Bool) (s : State) (f : FnId) (fc : FnCfg) (e : Exp) : Res State := do
  let (h, m) ← (s.mocks f).addExpectedCall alloc s.heap e
  .ok (({ s.setMock f m with heap := h }).addCall fc.name)

/-! ## The generated mock body, GEN:609-696 -/

/-- One iteration of the parameter section, GEN:646-676 (C and C++ variants). -/
def checkParam (pcs : Bool) (bt : String) (ord : Nat) (name : String) (s : State)
    (p : String × ParamExp × Val) : State :=
  match p.2.1.matcher with
  | none => s
  | some mt =>
    match mt s.mem p.2.2 p.2.1.value p.1 with
    | none => s
    | some msg => s.addError pcs bt (.mismatch ord name msg)

/-- `memcpy(dst, src, n)`: undefined on unmapped or overlapping memory. -/
def memcpy (m : Mem) (dst src n : Nat) : Res Mem :=
  if n = 0 then .ok m
  else if (∀ k, k < n → (m (src + k)).isSome) ∧ (∀ k, k < n → (m (dst + k)).isSome) ∧
      (src + n ≤ dst ∨ dst + n ≤ src) then
    .ok (fun a => if dst ≤ a ∧ a < dst + n then m (src + (a - dst)) else m a)
  else .ub

/-- The output parameter sections, GEN:689-694. Each item: static size, configured output, pointer argument. -/
def writeOuts (m : Mem) : List (Option Nat × OutExp × Addr) → Res Mem
  | [] => .ok m
  | (sz, o, dst) :: r =>
    if o.src = 0 then writeOuts m r
    else do
      let m' ← memcpy m dst o.src (sz.getD o.size)
      writeOuts m' r

def zip3 {α β γ : Type} (a : List α) (b : List β) (c : List γ) : List (α × β × γ) := a.zip (b.zip c)

/-- The whole body, GEN:609-696. The result is `none` for a `void` function. -/
def callFn (cfg : Cfg) (s : State) (f : FnId) (fc : FnCfg) (c : Call) : Res (State × Option Val) :=
  let pcs := s.printCallStack cfg                                        -- 611
  let checkOrder := s.order                                              -- 612
  let dflt := fc.ret.map (fun n => List.replicate n (0 : UInt8))         -- 614-623
  let r := (s.mocks f).addActualCall                                     -- 624
  let s := s.setMock f r.1
  if r.2 = false then
    .ok (s.addError pcs c.bt (.unexpected fc.name (fc.ret.map fun _ => fc.shortName)), dflt)   -- 626-627
  else do
    let (h, m, d) ← (s.mocks f).getCurrentCallParam s.heap               -- 631
    let s := { s.setMock f m with heap := h }
    match d with
    | none => .ok (s.addError pcs c.bt .noData, dflt)                    -- 633-634
    | some e =>
      let ord := (s.mocks f).getNbActualCall
      let s := if fc.isMember = true ∧ e.inst ≠ 0 ∧ e.inst ≠ c.this then
          s.addError pcs c.bt (.badInstance ord fc.name e.inst c.this) else s     -- 637-644
      let s := (zip3 fc.paramNames e.params c.args).foldl (checkParam pcs c.bt ord fc.name) s   -- 646-676
      let res := fc.ret.map (fun _ => e.ret)                             -- 677
      let (s, cur) := s.popCurrentCall                                   -- 679
      if checkOrder = true ∧ cur ≠ fc.name then
        .ok (s.addError pcs c.bt (.order fc.name cur), res)              -- 680-688
      else do
        let mem ← writeOuts s.mem (zip3 fc.outs e.outs c.outs)           -- 689-694
        .ok ({ s with mem := mem }, res)

/-! ## Per-file functions of the generated code, GEN:754-791 -/

/-- `resetAll`, GEN:754-759. -/
def resetFns (s : State) : List FnId → Res State
  | [] => .ok s
  | f :: r => do
    let (h, m) ← (s.mocks f).reset s.heap
    resetFns { s.setMock f m with heap := h } r

/-- `initAll`, GEN:760-765: `MockedFunction_init` of every function. -/
def initFns (cfg : Cfg) (s : State) : List FnId → State
  | [] => s
  | f :: r => initFns cfg (s.setMock f (zeroMock cfg f)) r

/-- `MockedFunction_verify`, MockedFunction.c:101-111, MockedFunction.h:135-146. -/
def verifyFn (cfg : Cfg) (s : State) (f : FnId) : State × Bool :=
  let m := s.mocks f
  if m.getNbExpectedCall ≠ m.getNbActualCall then
    (s.addError false "" (.count (cfg.name f) m.getNbExpectedCall m.getNbActualCall), false)
  else (s, true)

/-- `verifyAll`, GEN:767-777: no short circuit. -/
def verifyFns (cfg : Cfg) (s : State) : List FnId → State × Bool
  | [] => (s, true)
  | f :: r =>
    let (s1, b1) := verifyFn cfg s f
    let (s2, b2) := verifyFns cfg s1 r
    (s2, b1 && b2)

/-! ## `EasyMock` member functions -/

/-- `initRegisteredMockedFile`, easyMock.cpp:195-202, over the given files. -/
def resetFiles (cfg : Cfg) (s : State) : List Nat → Res State
  | [] => .ok s
  | i :: r =>
    if s.reg i = true then
      if s.loaded i = true then do
        let s' ← resetFns s (cfg.fnsOf i)
        resetFiles cfg s' r
      else .ub
    else resetFiles cfg s r

/-- `EasyMock::init`, easyMock.cpp:64-69. -/
def initFramework (cfg : Cfg) (s : State) : Res State := do
  let s ← resetFiles cfg s (List.range cfg.files.length)
  .ok { s with fifo := [], errs := [] }

/-- `verifyRegisteredMockedFile`, easyMock.cpp:204-216. -/
def verifyFiles (cfg : Cfg) (s : State) : List Nat → Res (State × Bool)
  | [] => .ok (s, true)
  | i :: r =>
    if s.reg i = true then
      if s.loaded i = true then do
        let p := verifyFns cfg s (cfg.fnsOf i)
        let (s2, b2) ← verifyFiles cfg p.1 r
        .ok (s2, p.2 && b2)
      else .ub
    else verifyFiles cfg s r

/-- `EasyMock::verifyEasyMock`, easyMock.cpp:71-83. -/
def verifyEasyMock (cfg : Cfg) (s : State) : Res (State × Bool) := do
  let (s, b) ← verifyFiles cfg s (List.range cfg.files.length)
  .ok (s, b && s.errs.isEmpty)

/-- `EasyMock::getErrorStr`, easyMock.cpp:95-113; `none` is `NULL`. -/
def getErrorStr (s : State) : Option String :=
  let all := s.errs.foldl (fun acc e => acc ++ e.render ++ "\n\r") ""
  if all = "" then none else some all

/-- Conversion of a container size to `unsigned int`. -/
def trunc32 (n : Nat) : Nat := if n < 2 ^ 32 then n else n % 2 ^ 32

/-- `EasyMock::getErrorArr`, easyMock.cpp:115-132; the array ends with `NULL`. -/
def getErrorArr (s : State) : Option (List (Option String)) × Nat :=
  let size := trunc32 s.errs.length
  if size > 0 then (some (s.errs.map (fun e => some e.render) ++ [none]), size) else (none, size)

/-! ## Operations -/

inductive Op where
  /-- A call of an `Expect…` function; `alloc` says whether `malloc` succeeds (C mocks). -/
  | expect (f : FnId) (e : Exp) (alloc : Bool)
  /-- The code under test calls a mocked function. -/
  | call (f : FnId) (c : Call)
  | init
  | check
  | setOrder (b : Bool)
  | setPrint (b : Bool)
  /-- A mock file enters the process: its constructor runs, GEN:781-785. -/
  | load (i : Nat)
  /-- A mock file leaves the process: its destructor runs, GEN:787-791. -/
  | unload (i : Nat)
  | getStr
  | getArr
  /-- The test writes a byte of its own memory. -/
  | poke (a : Addr) (b : UInt8)

inductive Out where
  | none
  | ret (v : Option Val)
  | verdict (b : Bool)
  | str (s : Option String)
  | arr (a : Option (List (Option String))) (size : Nat)
  deriving DecidableEq, Repr

/-- One operation. Using a function of a file that is not in the process, loading a file twice, unloading an absent
one and writing unmapped memory are undefined. -/
def step (cfg : Cfg) (s : State) : Op → Res (State × Out)
  | .expect f e alloc =>
    match cfg.fn? f with
    | none => .ub
    | some fc =>
      if s.loaded f.file = true then do
        let s' ← expectFn alloc s f fc e
        .ok (s', .none)
      else .ub
  | .call f c =>
    match cfg.fn? f with
    | none => .ub
    | some fc =>
      if s.loaded f.file = true then do
        let (s', v) ← callFn cfg s f fc c
        .ok (s', .ret v)
      else .ub
  | .init => do
    let s' ← initFramework cfg s
    .ok (s', .none)
  | .check => do
    let (s', b) ← verifyEasyMock cfg s
    .ok (s', .verdict b)
  | .setOrder b => .ok ({ s with order := b }, .none)
  | .setPrint b => .ok (s.setPrintCallStack cfg b, .none)
  | .load i =>
    if s.loaded i = true ∨ cfg.files.length ≤ i then .ub
    else
      let s1 := initFns cfg { s with loaded := fun j => if j = i then true else s.loaded j } (cfg.fnsOf i)
      .ok (s1.registerMock i, .none)
  | .unload i =>
    if s.loaded i = true then do
      let s1 ← resetFns s (cfg.fnsOf i)
      .ok ({ s1.unregisterMock i with loaded := fun j => if j = i then false else s1.loaded j }, .none)
    else .ub
  | .getStr => .ok (s, .str (getErrorStr s))
  | .getArr => .ok (s, .arr (getErrorArr s).1 (getErrorArr s).2)
  | .poke a b =>
    match s.mem a with
    | some _ => .ok ({ s with mem := fun x => if x = a then some b else s.mem x }, .none)
    | none => .ub

/-- State after a history; histories are written newest operation first. -/
def runRev (cfg : Cfg) (m0 : Mem) : List Op → Res State
  | [] => .ok (State.initial cfg m0)
  | op :: past => do
    let s ← runRev cfg m0 past
    let (s', _) ← step cfg s op
    .ok s'

/-- What the caller of `op` observes after the history `past` (newest first). -/
def observe (cfg : Cfg) (m0 : Mem) (past : List Op) (op : Op) : Res Out := do
  let s ← runRev cfg m0 past
  let (_, o) ← step cfg s op
  .ok o

end EasyMock
