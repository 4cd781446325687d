import Verif.Basic

/-!
# The call stack in error messages

Model of `debugInfo` and `append_backtrace`, src/easyMockFramework/src/easyMock.cpp:235-361 (cited as FW), built with
`BACKTRACE_SUPPORT`. What libunwind and libdwfl answer is a parameter (`Unwind`, `Info`); `boost::core::demangle` is part of the
answer. `NDEBUG` is undefined (FW:18), so that a failing `assert` ends the process. `skip` (FW:314) is never positive, its overflow
after 2^31 frames is not modelled.
-/

namespace EasyMock.Backtrace

open EasyMock

/-- What libdwfl says about an address, once the process is known. -/
structure Module where
  /-- `dwfl_module_addrname`, demangled; `none` is `NULL`. -/
  function : Option String
  /-- `dwfl_getsrc` and `dwfl_lineinfo`: file name (`none` is `NULL`) and line. -/
  line : Option (Option String × Nat)
  /-- `dwfl_module_info`. -/
  name : Option String
  deriving DecidableEq

/-- What libdwfl says when asked about an address. -/
inductive Info where
  /-- `dwfl_begin` returns `NULL`. -/
  | noSession
  /-- One of the reports fails, FW:257-258. -/
  | noReport
  /-- `dwfl_addrmodule` returns `NULL`. -/
  | noModule
  | module (m : Module)
  deriving DecidableEq

/-- One step of the unwinder: what `unw_get_reg` answers. -/
inductive Frame where
  | failed (errcode : Int)
  | at (ip : Nat)

/-- What libunwind answers. -/
inductive Unwind where
  /-- `unw_getcontext` fails. -/
  | noContext
  /-- `unw_init_local` fails. -/
  | noCursor (errcode : Int)
  /-- The frames `unw_step` goes through, innermost first. -/
  | frames (fs : List Frame)

/-- `strrchr(filename, '/') + 1`, FW:288; without a slash `strrchr` returns `NULL`. -/
def afterSlash : Option String → Option String
  | none => none
  | some f => if '/' ∈ f.toList then some (String.ofList (f.toList.reverse.takeWhile (· ≠ '/')).reverse) else none

/-- FW:282-305: the text for the source line, and whether it is known. -/
def lineText (m : Module) : Res (String × Bool) :=
  match m.line with
  | some (f, n) =>
    match afterSlash f with
    | some base => .ok (base ++ ":" ++ toString n, true)
    | none => .ub
  | none =>
    match m.name with
    | some s => .ok ("in <Backtrace unavailable: " ++ s ++ ">", false)
    | none => .ok ("in <Backtrace unavailable: unkown_module>", false)

/-- `debugInfo`, FW:235-309: the text appended, and whether 0 is returned. -/
def debugInfo : Info → Res (String × Bool)
  | .noSession => .ok ("<Backtrace unavailable: No callback available>", false)
  | .noReport => .exit
  | .noModule => .ok ("<Backtrace unavailable: No module available>", false)
  | .module m =>
    let fn : String × Bool :=
      match m.function with
      | some f => (f ++ "(", true)
      | none => ("<Backtrace unavailable: Unkown function name>", false)
    match lineText m with
    | .ok r => .ok (fn.1 ++ r.1, fn.2 && r.2)
    | .ub => .ub
    | .exit => .exit

/-- `ip - 4` in 64 bits, FW:345. -/
def callSite (ip : Nat) : Nat := (ip + 2 ^ 64 - 4) % 2 ^ 64

/-- The loop of `append_backtrace`, FW:330-358: the text appended to `acc`. -/
def walk (info : Nat → Info) (acc : String) : List Frame → Res String
  | [] => .ok acc
  | .failed e :: _ =>
    .ok (acc ++ "<Backtrace unavailable: Couldn't get the register (errcode: " ++ toString e ++ "). Backtrace won't work>\n")
  | .at ip :: rest =>
    match debugInfo (info (callSite ip)) with
    | .ok (t, true) => walk info (acc ++ "\tat " ++ t ++ ")\n") rest
    | .ok (t, false) => .ok (acc ++ "\tat " ++ t)
    | .ub => .ub
    | .exit => .exit

/-- `append_backtrace`, FW:311-361. -/
def appendBacktrace (info : Nat → Info) (error : String) : Unwind → Res String
  | .noContext => .ok (error ++ "<Backtrace unavailable: no context>\n")
  | .noCursor e =>
    .ok (error ++ "<Backtrace unavailable: Couldn't initialise local curser (errcode: " ++ toString e ++ "). Backtrace won't work>\n")
  | .frames fs => walk info error fs

/-- `EasyMock::addError`, FW:85-93: the text pushed. -/
def errorText (info : Nat → Info) (u : Unwind) (error : String) (callstack : Bool) : Res String :=
  if callstack then appendBacktrace info (error ++ "\n\r") u else .ok error

end EasyMock.Backtrace
