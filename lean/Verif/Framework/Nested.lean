import Verif.Framework.Model

/-! # Mocks called by matchers

A matcher is a function of the test and may call mocks itself.  The body of a mock (GEN:609-696) is cut here where it calls a
matcher, GEN:655 and 669: between the start and the end of a call other calls may start and end, of any mock, and so on.

Simplification: output parameters are left out; matchers do not set expectations and do not change options. -/

namespace EasyMock.Nested

/-- A call whose matchers are running: the local variables of the body, GEN:611-631, and the number of the call. -/
structure Frame where
  id : Nat
  f : FnId
  fc : FnCfg
  /-- `currentDataCall` -/
  e : Exp
  /-- `checkCallsOrder` -/
  order : Bool
  /-- `printCallStack` -/
  pcs : Bool
  bt : String

/-- The process, the active calls, innermost first; for every call that started what it is served by, in this order; for the calls
    that ended their numbers and results. -/
structure NSt where
  s : State
  stack : List Frame := []
  served : List (FnId × Option Exp) := []
  returned : List (Nat × Option Val) := []

inductive Ev where
  /-- The code under test, or a matcher of the innermost call, calls a mock. -/
  | enter (f : FnId) (c : Call)
  /-- A matcher of the innermost call rejects an argument. -/
  | reject (msg : String)
  /-- The matchers of the innermost call are done. -/
  | leave

/-- The part of the body before the first matcher, GEN:611-644. -/
def enter (cfg : Cfg) (n : NSt) (f : FnId) (fc : FnCfg) (c : Call) : Res NSt :=
  let pcs := n.s.printCallStack cfg                                      -- 611
  let checkOrder := n.s.order                                            -- 612
  let dflt := fc.ret.map (fun n => List.replicate n (0 : UInt8))         -- 614-623
  let r := (n.s.mocks f).addActualCall                                   -- 624
  let s := n.s.setMock f r.1
  if r.2 = false then
    .ok { n with s := s.addError pcs c.bt (.unexpected fc.name (fc.ret.map fun _ => fc.shortName)),
                 served := n.served ++ [(f, none)], returned := n.returned ++ [(n.served.length, dflt)] }
  else do
    let (h, m, d) ← (s.mocks f).getCurrentCallParam s.heap               -- 631
    let s := { s.setMock f m with heap := h }
    match d with
    | none => .ok { n with s := s.addError pcs c.bt .noData,
                           served := n.served ++ [(f, none)], returned := n.returned ++ [(n.served.length, dflt)] }
    | some e =>
      let s := if fc.isMember = true ∧ e.inst ≠ 0 ∧ e.inst ≠ c.this then
          s.addError pcs c.bt (.badInstance (s.mocks f).getNbActualCall fc.name e.inst c.this) else s     -- 637-644
      .ok { n with s := s, served := n.served ++ [(f, some e)],
                   stack := ⟨n.served.length, f, fc, e, checkOrder, pcs, c.bt⟩ :: n.stack }

/-- One event.  Without an active call there is no matcher: `reject` and `leave` do nothing then. -/
def nstep (cfg : Cfg) (n : NSt) : Ev → Res NSt
  | .enter f c =>
    match cfg.fn? f with
    | none => .ub
    | some fc => if n.s.loaded f.file = true then enter cfg n f fc c else .ub
  | .reject msg =>
    match n.stack with
    | [] => .ok n
    | fr :: _ => .ok { n with s := n.s.addError fr.pcs fr.bt (.mismatch (n.s.mocks fr.f).getNbActualCall fr.fc.name msg) }   -- 657, 671
  | .leave =>
    match n.stack with
    | [] => .ok n
    | fr :: rest =>
      let r := n.s.popCurrentCall                                        -- 679
      let s := if fr.order = true ∧ r.2 ≠ fr.fc.name then r.1.addError fr.pcs fr.bt (.order fr.fc.name r.2) else r.1   -- 680-688
      .ok { n with s := s, stack := rest, returned := n.returned ++ [(fr.id, fr.fc.ret.map fun _ => fr.e.ret)] }   -- 677, 695

/-- A run, oldest event first. -/
def nrun (cfg : Cfg) (n : NSt) : List Ev → Res NSt
  | [] => .ok n
  | ev :: evs => do
    let n' ← nstep cfg n ev
    nrun cfg n' evs

end EasyMock.Nested
