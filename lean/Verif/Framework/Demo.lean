import Verif.Framework.Step

/-! A small program used as the concrete case beside the property theorems: two mock files, a C function with an output
parameter, a `void` C function and a C++ member function. -/

namespace EasyMock.Demo
open EasyMock

/-- A matcher that compares the bytes of the values. -/
def eqM : Matcher := fun _ cur ex n => if cur = ex then none else some n

def cfg : Cfg := {
  files := [
    [{ name := "int f(int a, char * p)", shortName := "f", ret := some 4, paramNames := ["a", "p"], outs := [some 1] },
     { name := "void g()", shortName := "g" }],
    [{ name := "int K::h(int a)", shortName := "h", ret := some 4, isC := false, isMember := true, paramNames := ["a"] }]],
  backtrace := true }

def f : FnId := ⟨0, 0⟩
def g : FnId := ⟨0, 1⟩
def h : FnId := ⟨1, 0⟩

/-- Addresses 1 to 99 are mapped. -/
def m0 : Mem := fun a => if 0 < a ∧ a < 100 then some 0 else none

def eF (a r : UInt8) : Exp :=
  { params := [⟨[a], some eqM⟩, ⟨[], none⟩], ret := [r, 0, 0, 0], outs := [⟨20, 0⟩] }
def eG : Exp := {}
def eH (a r : UInt8) : Exp := { inst := 7, params := [⟨[a], some eqM⟩], ret := [r, 0, 0, 0] }

def cF (a : UInt8) : Call := { args := [[a], []], outs := [40], bt := "bt" }
def cG : Call := {}
def cH (a : UInt8) : Call := { this := 7, args := [[a]] }

/-- Loading both files, the order option on. -/
def boot : List Op := [.setOrder true, .load 1, .load 0]

/-- Three expectations and one served call; newest first. -/
def hist : List Op :=
  [.call f (cF 1), .poke 20 9, .expect h (eH 3 30) true, .expect g eG true, .expect f (eF 1 10) true, .init] ++ boot

def isOk {α : Type} : Res α → Bool
  | .ok _ => true
  | _ => false

theorem of_isOk {α : Type} {r : Res α} (h : isOk r = true) : ∃ a, r = .ok a := by
  cases r with
  | ok a => exact ⟨a, rfl⟩
  | exit => simp [isOk] at h
  | ub => simp [isOk] at h

example : isOk (runRev cfg m0 hist) = true := by decide +kernel
example : observe cfg m0 hist (.call h (cH 3)) = .ok (.ret (some [30, 0, 0, 0])) := by decide +kernel
example : observe cfg m0 (.call g cG :: hist) (.call h (cH 3)) = .ok (.ret (some [30, 0, 0, 0])) := by decide +kernel
example : observe cfg m0 (.call h (cH 3) :: .call g cG :: hist) .check = .ok (.verdict true) := by decide +kernel
example : observe cfg m0 (.call g cG :: .call h (cH 3) :: hist) .check = .ok (.verdict false) := by decide +kernel
example : isOk (runRev cfg m0 (.call h (cH 3) :: .call g cG :: hist)) = true := by decide +kernel

end EasyMock.Demo
