import Verif.Gen.Model
import Verif.Framework.Model
import Verif.Matcher.Model

/-!
# MockCode: the code generated for a function

The statements of the source template for one function, GEN = `src/easyMockGenerate/src/CTemplateGenerator/
CodeGeneratorCTemplate.cpp` 564-748, as an abstract syntax made from the section of the function (`Gen.FunSection`), and
an interpreter of it.  Variables and members are referred to by name, as in the text; the interpreter resolves them.
`Framework.callFn` describes the same code by positions.

Simplifications.
* A reference is held as the bytes of the address it refers to. `MockCode.Reference` has the data structure of a function
  with references; the mock is interpreted here for both ways of passing.
* A matcher reads the two objects it is given.
* A statement of the abstract syntax stands for the lines cited at its constructor.
* Values as in `Framework`: a value is a list of bytes; a call gives the pointer arguments of the output parameters
  separately.
* `sizeof *p` of an output parameter is a parameter of the model.
* A name which denotes something else than a parameter, an unknown member, or a member of another kind make the
  interpreter fail (`none`); so does a duplicate declaration, which a compiler rejects.
-/

namespace EasyMock.MockCode

open EasyMock EasyMock.Gen

/-- Content of a member of the data structure or of a variable of an Expect function. -/
inductive MVal where
  | val (v : Val)
  | matcher (m : Option Matcher)
  | ptr (a : Addr)
  | size (n : Nat)

/-- The members of `_f_data` in the order of their declarations, GEN:565-596. The same names are
    listed by `Gen.dataMembers`. -/
def layout (s : FunSection) (e : Exp) : List MVal :=
  (if s.cls.isSome then [.ptr e.inst] else []) ++
  (e.params.map (fun p => [.val p.value, .matcher p.matcher])).flatten ++
  (if s.hasReturn then [.val e.ret] else []) ++
  ((s.outs.zip e.outs).map (fun x =>
    .ptr x.2.src :: (if x.1.2.2.1 == .sized then [.size x.2.size] else []))).flatten

/-- `object.member`. -/
def member (s : FunSection) (content : List MVal) (m : String) : Option MVal :=
  ((dataMembers s).zip content).lookup m

/-- The name of the member for a matcher, GEN:419-420. -/
def matchMember (s : FunSection) (p : String) : String := dataPrefix s ++ "_match_" ++ p

/-- The name of the member for the result, GEN:416-417. -/
def retMember (s : FunSection) : String := dataPrefix s ++ "_returnValue"

/-! ## The mock -/

/-- The statements of the mock. -/
inductive Stmt where
  /-- GEN:624-628 -/
  | addActualCall
  /-- GEN:630-635 -/
  | getCurrentCallParam
  /-- GEN:637-644: the member -/
  | checkInstance (m : String)
  /-- GEN:646-660 (C), 661-674 (C++): the member of the matcher, the identifier of the current value, the member of
      the expected value, the string literal -/
  | check (matcher : String) (current : String) (expected : String) (literal : String)
  /-- GEN:677: the member -/
  | setResult (m : String)
  /-- GEN:679-688 -/
  | checkOrder
  /-- GEN:689-694: the member of the output, the identifier of the destination, the member of the size or
      `sizeof(*p)` with the position of `p` among the outputs -/
  | copyOut (out : String) (dest : String) (size : String ⊕ Nat)
  /-- GEN:695 and the end of the body -/
  | ret

/-- The body of the mock, GEN:611-696. -/
def mockBody (s : FunSection) : List Stmt :=
  [.addActualCall, .getCurrentCallParam] ++
  (if s.cls.isSome then [.checkInstance "instance"] else []) ++
  s.params.entries.map (fun e => .check (matchMember s e.2.1) e.2.1 e.2.1 e.2.1) ++
  (if s.hasReturn then [.setResult (retMember s)] else []) ++
  [.checkOrder] ++
  s.outs.zipIdx.map (fun e => .copyOut ("out_" ++ e.1.2.1) e.1.2.1
    (if e.1.2.2.1 == .sized then .inl ("out_" ++ e.1.2.1 ++ "_size") else .inr e.2)) ++
  [.ret]

/-- The variables of the mock besides its parameters: `printCallStack`, `checkCallsOrder`, `default_res`,
    `currentDataCall`, `currentCall` (GEN:611-630, 679), with the state of the framework. -/
structure Frame where
  st : State
  pcs : Bool
  order : Bool
  res : Option Val
  data : Option Exp := none

/-- The pointer passed for the parameter at position `i`. -/
def pointerArg (s : FunSection) (c : Call) (i : Nat) : Option Addr :=
  c.outs[((s.params.entries.take i).filter (fun e => e.2.2.1 != .none)).length]?

/-- How the parameters are passed and the result is returned. -/
structure Passing where
  /-- For a reference parameter the size of the object, `REFERENCE_MEMBER_SECTION`, GEN:1590-1594; otherwise
      `REGULAR_MEMBER_SECTION`, GEN:1595-1598. -/
  params : List (Option Nat) := []
  /-- For a reference result the reference to `dummyRes_f`, `REFERENCE_RETURN_SECTION`, GEN:1503-1506 and 615-617. -/
  result : Option Val := none

/-- The content of the object at an address; `none` if there is no object any more. -/
def objectAt (mem : Mem) (a n : Nat) : Option Val := (List.range n).mapM (fun k => mem (a + k))

/-- `matcher(curCallVal, expectedCallVal, "p", errorMessage)` for parameter `i`, GEN:655 and 669: a reference and a
    `std::reference_wrapper` stand for the objects they refer to. -/
def callMatcher (ps : Passing) (i : Nat) (mt : Matcher) (mem : Mem) (cur ex : Val) (lit : String) : Res (Option String) :=
  match (ps.params[i]?).join with
  | none => .ok (mt mem cur ex lit)
  | some n =>
    match objectAt mem (Matcher.loadU cur) n, objectAt mem (Matcher.loadU ex) n with
    | some u, some v => .ok (mt mem u v lit)
    | _, _ => .ub

/-- Execution of statements: `none` when a name cannot be resolved as meant. `fr` is the frame, the result is that of
    the function. -/
def exec (ps : Passing) (s : FunSection) (f : FnId) (fc : FnCfg) (c : Call) :
    List Stmt → Frame → Option (Res (State × Option Val))
  | [], fr => some (.ok (fr.st, fr.res))
  | .addActualCall :: rest, fr =>
    let r := (fr.st.mocks f).addActualCall
    let st := fr.st.setMock f r.1
    if r.2 then exec ps s f fc c rest { fr with st := st }
    else some (.ok (st.addError fr.pcs c.bt (.unexpected fc.name (fc.ret.map fun _ => fc.shortName)), fr.res))
  | .getCurrentCallParam :: rest, fr =>
    match (fr.st.mocks f).getCurrentCallParam fr.st.heap with
    | .ok (h, m, d) =>
      let st := { fr.st.setMock f m with heap := h }
      match d with
      | none => some (.ok (st.addError fr.pcs c.bt .noData, fr.res))
      | some e => exec ps s f fc c rest { fr with st := st, data := some e }
    | .ub => some .ub
    | .exit => some .exit
  | .checkInstance m :: rest, fr =>
    match fr.data with
    | none => none
    | some e =>
      match member s (layout s e) m with
      | some (.ptr a) =>
        if a ≠ 0 ∧ a ≠ c.this then
          let st := fr.st.addError fr.pcs c.bt (.badInstance (fr.st.mocks f).getNbActualCall fc.name a c.this)
          exec ps s f fc c rest { fr with st := st }
        else exec ps s f fc c rest fr
      | _ => none
  | .check ma cur ex lit :: rest, fr =>
    match fr.data with
    | none => none
    | some e =>
      match member s (layout s e) ma with
      | some (.matcher none) => exec ps s f fc c rest fr
      | some (.matcher (some mt)) =>
        match resolveCheck s cur, member s (layout s e) ex with
        | .parameter i, some (.val v) =>
          match c.args[i]? with
          | none => none
          | some a =>
            match callMatcher ps i mt fr.st.mem a v lit with
            | .ok none => exec ps s f fc c rest fr
            | .ok (some msg) =>
              let st := fr.st.addError fr.pcs c.bt (.mismatch (fr.st.mocks f).getNbActualCall fc.name msg)
              exec ps s f fc c rest { fr with st := st }
            | .ub => some .ub
            | .exit => some .exit
        | _, _ => none
      | _ => none
  | .setResult m :: rest, fr =>
    match fr.data with
    | none => none
    | some e =>
      match member s (layout s e) m with
      | some (.val v) => exec ps s f fc c rest { fr with res := some v }
      | _ => none
  | .checkOrder :: rest, fr =>
    let r := fr.st.popCurrentCall
    if fr.order = true ∧ r.2 ≠ fc.name then
      some (.ok (r.1.addError fr.pcs c.bt (.order fc.name r.2), fr.res))
    else exec ps s f fc c rest { fr with st := r.1 }
  | .copyOut out dest size :: rest, fr =>
    match fr.data with
    | none => none
    | some e =>
      match member s (layout s e) out with
      | some (.ptr src) =>
        if src = 0 then exec ps s f fc c rest fr
        else
          match resolveMock s dest with
          | .parameter i =>
            match pointerArg s c i, (match size with
              | .inl m => (match member s (layout s e) m with | some (.size n) => some n | _ => none)
              | .inr j => (fc.outs[j]?).join) with
            | some dst, some n =>
              match memcpy fr.st.mem dst src n with
              | .ok mem => exec ps s f fc c rest { fr with st := { fr.st with mem := mem } }
              | .ub => some .ub
              | .exit => some .exit
            | _, _ => none
          | _ => none
      | _ => none
  | .ret :: _, fr => some (.ok (fr.st, fr.res))

/-- A call of the mock, GEN:609-696; the declarations of GEN:611-623 and 636 are the first frame. -/
def runMock (cfg : Cfg) (s : FunSection) (f : FnId) (fc : FnCfg) (st : State) (c : Call) (ps : Passing := {}) :
    Option (Res (State × Option Val)) :=
  exec ps s f fc c (mockBody s)
    { st := st, pcs := st.printCallStack cfg, order := st.order,
      res := fc.ret.map (fun n => ps.result.getD (List.replicate n (0 : UInt8))) }

/-- What the section says about the function. `sizes` are the sizes of the objects behind
    the output parameters, `n` is the size of the result. The name is the one given to `MockedFunction_init`, GEN:763. -/
def fnCfg (c : Config) (s : FunSection) (n : Nat) (sizes : List Nat) : FnCfg where
  isC := !c.cpp
  name := mockSignature s
  shortName := s.name
  isMember := s.cls.isSome
  ret := if s.hasReturn then some n else none
  paramNames := s.params.names
  outs := (s.outs.zip sizes).map (fun x => if x.1.2.2.1 == .sized then none else some x.2)

/-! ## The Expect functions -/

/-- An assignment `mockedData.member = variable`, or `memcpy` of one to the other. -/
structure Assign where
  member : String
  var : String

/-- The assignments of the common function, GEN:723-745. -/
def commonBody (s : FunSection) : List Assign :=
  (if s.cls.isSome then [⟨"instance", "instance"⟩] else []) ++
  (s.params.entries.map (fun e => [⟨e.2.1, e.2.1⟩, ⟨matchMember s e.2.1, "easyMock_match_" ++ e.2.1⟩])).flatten ++
  (s.outs.map (fun e =>
    (if e.2.2.1 == .sized then [Assign.mk ("out_" ++ e.2.1 ++ "_size") ("out_" ++ e.2.1 ++ "_size")] else []) ++
    [⟨"out_" ++ e.2.1, "out_" ++ e.2.1⟩])).flatten ++
  (if s.hasReturn then [⟨retMember s, "to_return"⟩] else [])

/-- The content after the assignments; a member which is not assigned is not initialised (`none`). -/
def assigned (s : FunSection) (vars : List (String × MVal)) : List Assign → List (Option MVal) → Option (List (Option MVal))
  | [], d => some d
  | a :: rest, d =>
    if a.member ∈ dataMembers s then
      match vars.lookup a.var with
      | none => none
      | some v => assigned s vars rest (d.set ((dataMembers s).idxOf a.member) (some v))
    else none

/-- Whether the lists of parameters and arguments of the Expect functions have no empty entry: the object of a member
    function is followed by one comma for each parameter, GEN:370-372, 704 and 713 (C49). -/
def listsOk (s : FunSection) : Bool :=
  s.cls.isNone || s.params.entries.length == 1 || (s.params.entries.isEmpty && !s.hasReturn)

/-- The content of `mockedData` when it is given to `MockedFunction_addExpectedCall` (GEN:746), for the arguments of the
    common function in the order of its parameters. The parameters and `mockedData` share a scope. -/
def runCommon (s : FunSection) (args : List MVal) : Option (List (Option MVal)) :=
  if listsOk s = true ∧ (expectNames s ++ ["mockedData"]).Nodup ∧ (dataMembers s).Nodup ∧ args.length = (expectNames s).length then
    assigned s ((expectNames s).zip args) (commonBody s) (List.replicate (dataMembers s).length none)
  else none

/-- An argument of the call of the common function. -/
inductive Arg where
  | var (x : String)
  | null
  | zero

/-- The text of an argument. -/
def Arg.text : Arg → String
  | .var x => x
  | .null => "easyMock_null"
  | .zero => "0"

/-- The value of an argument. -/
def Arg.eval (vars : List (String × MVal)) : Arg → Option MVal
  | .var x => vars.lookup x
  | .null => some (.ptr 0)
  | .zero => some (.size 0)

/-- The names of the parameters of `ExpectAndReturn`, GEN:369-373. -/
def shortNames (s : FunSection) : List String :=
  instanceNames s ++ s.params.names ++ (if s.hasReturn then ["to_return"] else []) ++ s.params.names.map (fun n => "easyMock_match_" ++ n)

/-- The arguments of `ExpectAndReturn` for the common function, GEN:703-706. -/
def shortArgs (s : FunSection) : List Arg :=
  (shortNames s).map .var ++ (s.outs.map (fun e => .null :: (if e.2.2.1 == .sized then [.zero] else []))).flatten

/-- The arguments of `ExpectReturnAndOutput` for the common function, GEN:712-715. -/
def longArgs (s : FunSection) : List Arg := (expectNames s).map .var

/-- `ExpectAndReturn`, GEN:701-707. -/
def runExpectAndReturn (s : FunSection) (args : List MVal) : Option (List (Option MVal)) :=
  if listsOk s = true ∧ (shortNames s).Nodup ∧ args.length = (shortNames s).length then
    match (shortArgs s).mapM (Arg.eval ((shortNames s).zip args)) with
    | some vs => runCommon s vs
    | none => none
  else none

/-- `ExpectReturnAndOutput`, GEN:709-717: exists only if there are outputs. -/
def runExpectReturnAndOutput (s : FunSection) (args : List MVal) : Option (List (Option MVal)) :=
  if s.outs ≠ [] ∧ listsOk s = true ∧ (expectNames s).Nodup ∧ args.length = (expectNames s).length then
    match (longArgs s).mapM (Arg.eval ((expectNames s).zip args)) with
    | some vs => runCommon s vs
    | none => none
  else none

end EasyMock.MockCode
