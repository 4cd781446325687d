import Verif.MockCode.File

/-!
# MockCode: functions with reference parameters and reference results

GEN = `src/easyMockGenerate/src/CTemplateGenerator/CodeGeneratorCTemplate.cpp`. A reference parameter is kept as a
`std::reference_wrapper`, which the Expect function binds to the object given by the test (GEN:728) and which the mock
converts to a reference when it calls the matcher (GEN:665-669). The object itself is not copied.

Simplifications, besides those of `MockCode.Model`.
* The content of the objects `default_p` (GEN:286) is not represented: no statement uses them after the common
  function has assigned the wrapper.
* A reference to an object which does not exist any more is a reference to unmapped memory.
-/

namespace EasyMock.MockCode

open EasyMock EasyMock.Gen EasyMock.Types

/-- The size of the object behind a reference parameter, GEN:1580 and 1590-1598: `paramType->unqualify()->asReference()`.
    `size` is the `sizeof` of a type. -/
def refSize (size : Ty → Nat) (t : Ty) : Option Nat :=
  match unqualifyFuel 2 t with
  | some (.ref _ u) => some (size u)
  | _ => none

def refSizes (size : Ty → Nat) : Params → List (Option Nat)
  | .nil => []
  | .cons _ t _ rest => refSize size t :: refSizes size rest

/-- How the functions of a header are passed, GEN:1503-1510 and 1580-1598. `dummy` is the reference to `dummyRes_f`. -/
def passingOf (size : Ty → Nat) (dummy : Val) (ret : Ty) (ps : Params) : Passing where
  params := refSizes size ps
  result := if isReference ret then some dummy else none

/-- Whether parameter `i` is a reference. -/
def Passing.isRef (ps : Passing) (i : Nat) : Bool := ((ps.params[i]?).join).isSome

/-- The members of the data structure, GEN:565-596 with `DECLARE_REFERENCE_MEMBERS`, GEN:285-287: a reference member has an
    object which it refers to until it is assigned. -/
def refMembers (ps : Passing) (s : FunSection) : List String :=
  instanceNames s ++
  (s.params.entries.zipIdx.map (fun e =>
    (if ps.isRef e.2 then ["default_" ++ e.1.2.1] else []) ++ [e.1.2.1, dataPrefix s ++ "_match_" ++ e.1.2.1])).flatten ++
  (if s.hasReturn then
    (if ps.result.isSome then ["default_" ++ (dataPrefix s ++ "_returnValue")] else []) ++ [dataPrefix s ++ "_returnValue"]
   else []) ++
  (s.outs.map (fun e => ("out_" ++ e.2.1) ::
    (if e.2.2.1 == .sized then ["out_" ++ e.2.1 ++ "_size"] else []))).flatten

/-- `ExpectAndReturn` of a function with references, GEN:701-707 and 719-745. -/
def refExpectAndReturn (ps : Passing) (s : FunSection) (args : List MVal) : Option (List (Option MVal)) :=
  if (refMembers ps s).Nodup then runExpectAndReturn s args else none

/-- `ExpectReturnAndOutput` of a function with references, GEN:709-717 and 719-745. -/
def refExpectReturnAndOutput (ps : Passing) (s : FunSection) (args : List MVal) : Option (List (Option MVal)) :=
  if (refMembers ps s).Nodup then runExpectReturnAndOutput s args else none

/-! ## A process with such functions -/

/-- The functions of a process which have reference parameters or a reference result: their sections, how they are
    passed, and what the mock is called in messages comes from the configuration. -/
abbrev RefFns := FnId → Option (FunSection × Passing)

/-- One operation: calls of these functions run the generated statements, everything else is as before. -/
def rstep (cfg : Cfg) (P : RefFns) (st : State) : Op → Option (Res (State × Out))
  | .call f c =>
    match P f, cfg.fn? f with
    | some (s, ps), some fc =>
      if st.loaded f.file = true then
        obind (if (refMembers ps s).Nodup then runMock cfg s f fc st c ps else none) (fun r => some (.ok (r.1, .ret r.2)))
      else some .ub
    | _, _ => some (step cfg st (.call f c))
  | op => some (step cfg st op)

/-- The process after a history, newest operation first. -/
def rrun (cfg : Cfg) (P : RefFns) (m0 : Mem) : List Op → Option (Res State)
  | [] => some (.ok (State.initial cfg m0))
  | op :: past => obind (rrun cfg P m0 past) (fun st => obind (rstep cfg P st op) (fun r => some (.ok r.1)))

/-- What the caller of an operation observes after a history. -/
def robserve (cfg : Cfg) (P : RefFns) (m0 : Mem) (past : List Op) (op : Op) : Option (Res Out) :=
  obind (rrun cfg P m0 past) (fun st => obind (rstep cfg P st op) (fun r => some (.ok r.2)))

end EasyMock.MockCode
