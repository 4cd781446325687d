import Verif.MockCode.Model

/-!
# MockCode: the code generated for a file, and a process made of such files

GEN = `src/easyMockGenerate/src/CTemplateGenerator/CodeGeneratorCTemplate.cpp`, lines 597-600 (the objects), 749-791 (reset,
initialisation, verification, registration), and the framework functions which call them, `easyMock.cpp` 54-83 and 195-216.
The generated code is an abstract syntax over the names which it uses; the interpreter resolves the names among the
declarations of the file.

Simplifications, besides those of `MockCode.Model`.
* A name which is declared twice in a file, or not at all, makes the interpreter fail (`none`).
* The operations of a test designate the function by its position; the scopes of C++ classes and namespaces are not
  searched for the names of the objects.
* A C++ object is usable when the constructor function of the file runs (GEN:781 runs before the dynamic initialisation of
  the objects of the file).
-/

namespace EasyMock.MockCode

open EasyMock EasyMock.Gen

/-- A function of a generated file, with the size of its result and the sizes of the objects behind its outputs. -/
structure GenFn where
  sec : FunSection
  ret : Nat
  sizes : List Nat

/-- A generated source file: its functions in the order of `FUNCTION_SECTION`. -/
abbrev GenFile := List GenFn

/-- `TEMPLATE_MOCKED_FUN_CLASS`, GEN:434-435. -/
def mockedName (s : FunSection) : String := "mocked_" ++ s.name

/-- `FUNCTION_MOCK_DATA_TYPE`, GEN:414-415. -/
def dataType (s : FunSection) : String := dataPrefix s ++ "_data"

/-- The static objects of a file, GEN:599-600. -/
def objects (file : GenFile) : List String := file.map (fun g => mockedName g.sec)

/-- The data structures of a file, GEN:566-567 and 595. -/
def dataTypes (file : GenFile) : List String := file.map (fun g => dataType g.sec)

/-- The common Expect functions of a file, GEN:598 and 719. -/
def commons (file : GenFile) : List String := file.map (fun g => commonName g.sec)

/-- The position of the only declaration of a name. -/
def resolve (names : List String) (x : String) : Option Nat :=
  if names.count x = 1 then some (names.idxOf x) else none

/-- The statements of the functions of the file. -/
inductive FStmt where
  /-- GEN:757 -/
  | reset (obj : String)
  /-- GEN:763: the object, the text between the quotes, the type under `sizeof` -/
  | init (obj : String) (literal : String) (type : String)
  /-- GEN:771-774 -/
  | verify (obj : String)

/-- The body of `easyMock_resetAllMocksInThisHeader`, GEN:754-759. -/
def resetAll (file : GenFile) : List FStmt := file.map (fun g => .reset (mockedName g.sec))

/-- The body of `easyMock_initAllMocksInThisHeader`, GEN:760-766. -/
def initAll (file : GenFile) : List FStmt :=
  file.map (fun g => .init (mockedName g.sec) (mockSignature g.sec) (dataType g.sec))

/-- The body of `easyMock_verifyAllMocksInThisHeader` between the declaration of `rv` and its return, GEN:767-777. -/
def verifyAll (file : GenFile) : List FStmt := file.map (fun g => .verify (mockedName g.sec))

/-- `mockedRegister`, GEN:779, but for the file name, which the framework does not use. -/
structure Register where
  reset : List FStmt
  verify : List FStmt

def mockedRegister (file : GenFile) : Register := ⟨resetAll file, verifyAll file⟩

/-- The statements of the functions which are run when the file enters and leaves the process, GEN:781-791. -/
inductive CStmt where
  | initAll
  | resetAll
  | register
  | unregister

def constructorBody : List CStmt := [.initAll, .register]

def destructorBody : List CStmt := [.resetAll, .unregister]

/-! ## The process -/

/-- The files linked with the framework. -/
structure Program where
  conf : Config
  files : List GenFile
  backtrace : Bool := true

/-- The description of the program which the framework model uses. -/
def Program.cfg (P : Program) : Cfg where
  files := P.files.map (fun file => file.map (fun g => fnCfg P.conf g.sec g.ret g.sizes))
  backtrace := P.backtrace

/-- The function at a position. -/
def Program.fn? (P : Program) (f : FnId) : Option (GenFile × GenFn) :=
  match P.files[f.file]? with
  | none => none
  | some file => (file[f.idx]?).map (fun g => (file, g))

/-- The state of the framework and the member `name` of each object, `none` for a null pointer. -/
structure GState where
  st : State
  names : FnId → Option String

/-- Sequence of two actions, each of which may be meaningless (`none`) or not return. -/
def obind {α β : Type} (x : Option (Res α)) (f : α → Option (Res β)) : Option (Res β) :=
  match x with
  | none => none
  | some (.ok a) => f a
  | some .ub => some .ub
  | some .exit => some .exit

/-- Whether a text means itself between the quotes of a string literal. -/
def plainLiteral (x : String) : Bool := x.toList.all (fun c => c ≠ '"' && c ≠ '\\' && c ≠ '\n')

/-- Execution of the statements of file `i`; `rv` is the variable of GEN:769. The function `MockedFunction_init` is
    MockedFunction.c:17-28 and MockedFunction.h:65-73, `MockedFunction_verify` is MockedFunction.c:101-111 and
    MockedFunction.h:135-146. -/
def execFile (P : Program) (i : Nat) (file : GenFile) : List FStmt → GState × Bool → Option (Res (GState × Bool))
  | [], r => some (.ok r)
  | .reset obj :: rest, (g, rv) =>
    match resolve (objects file) obj with
    | none => none
    | some k =>
      match (g.st.mocks ⟨i, k⟩).reset g.st.heap with
      | .ok (h, m) => execFile P i file rest ({ g with st := { g.st.setMock ⟨i, k⟩ m with heap := h } }, rv)
      | .ub => some .ub
      | .exit => some .exit
  | .init obj lit ty :: rest, (g, rv) =>
    match resolve (objects file) obj, resolve (dataTypes file) ty with
    | some k, some k' =>
      if plainLiteral lit = true ∧ k' = k then
        execFile P i file rest ({ st := g.st.setMock ⟨i, k⟩ (zeroMock P.cfg ⟨i, k⟩),
                                  names := fun f => if f = ⟨i, k⟩ then some lit else g.names f }, rv)
      else none
    | _, _ => none
  | .verify obj :: rest, (g, rv) =>
    match resolve (objects file) obj with
    | none => none
    | some k =>
      let m := g.st.mocks ⟨i, k⟩
      if m.getNbExpectedCall ≠ m.getNbActualCall then
        match g.names ⟨i, k⟩ with
        | none => some .ub
        | some n => execFile P i file rest
            ({ g with st := g.st.addError false "" (.count n m.getNbExpectedCall m.getNbActualCall) }, false)
      else execFile P i file rest (g, rv)

/-- Execution of the constructor or destructor function of file `i`. -/
def execCtor (P : Program) (i : Nat) (file : GenFile) : List CStmt → GState → Option (Res GState)
  | [], g => some (.ok g)
  | .initAll :: rest, g => obind (execFile P i file (initAll file) (g, true)) (fun r => execCtor P i file rest r.1)
  | .resetAll :: rest, g => obind (execFile P i file (resetAll file) (g, true)) (fun r => execCtor P i file rest r.1)
  | .register :: rest, g => execCtor P i file rest { g with st := g.st.registerMock i }
  | .unregister :: rest, g => execCtor P i file rest { g with st := g.st.unregisterMock i }

/-- `initRegisteredMockedFile`, easyMock.cpp:195-202. -/
def gresetFiles (P : Program) : List Nat → GState → Option (Res GState)
  | [], g => some (.ok g)
  | i :: rest, g =>
    if g.st.reg i = true then
      if g.st.loaded i = true then
        match P.files[i]? with
        | none => some .ub
        | some file => obind (execFile P i file (mockedRegister file).reset (g, true)) (fun r => gresetFiles P rest r.1)
      else some .ub
    else gresetFiles P rest g

/-- `verifyRegisteredMockedFile`, easyMock.cpp:204-216: `rv` is its variable. -/
def gverifyFiles (P : Program) : List Nat → GState × Bool → Option (Res (GState × Bool))
  | [], r => some (.ok r)
  | i :: rest, (g, rv) =>
    if g.st.reg i = true then
      if g.st.loaded i = true then
        match P.files[i]? with
        | none => some .ub
        | some file => obind (execFile P i file (mockedRegister file).verify (g, true))
            (fun r => gverifyFiles P rest (r.1, rv && r.2))
      else some .ub
    else gverifyFiles P rest (g, rv)

/-! ## The data of an expectation -/

/-- `mockedData.m` of an initialised member. -/
def dataField (s : FunSection) (d : List (Option MVal)) (m : String) : Option MVal :=
  if m ∈ dataMembers s then (d[(dataMembers s).idxOf m]?).join else none

/-- A parameter with its matcher, GEN:571-581. -/
def decodeParam (s : FunSection) (d : List (Option MVal)) (n : String) : Option ParamExp :=
  match dataField s d n, dataField s d (matchMember s n) with
  | some (.val v), some (.matcher m) => some ⟨v, m⟩
  | _, _ => none

/-- An output, GEN:589-594. -/
def decodeOut (s : FunSection) (d : List (Option MVal)) (x : String × String × Gen.Out × XDecl) : Option OutExp :=
  match dataField s d ("out_" ++ x.2.1) with
  | some (.ptr a) =>
    if x.2.2.1 == .sized then
      match dataField s d ("out_" ++ x.2.1 ++ "_size") with
      | some (.size n) => some ⟨a, n⟩
      | _ => none
    else some ⟨a, 0⟩
  | _ => none

/-- The expectation which a data structure describes; `none` if a member is not initialised. -/
def decode (s : FunSection) (d : List (Option MVal)) : Option Exp :=
  match (if s.cls.isSome then dataField s d "instance" else some (.ptr 0)),
      s.params.names.mapM (decodeParam s d),
      (if s.hasReturn then dataField s d (retMember s) else some (.val [])),
      s.outs.mapM (decodeOut s d) with
  | some (.ptr i), some ps, some (.val r), some os => some ⟨i, ps, r, os⟩
  | _, _, _, _ => none

/-- `MockedFunction_addExpectedCall(&mocked_f, &mockedData); easyMock_addCall(MockedFunction_getName(&mocked_f));`,
    GEN:746-747, after the content of `mockedData` has been computed. -/
def gexpect (P : Program) (f : FnId) (g : GState) (run : FunSection → Option (List (Option MVal))) (alloc : Bool) :
    Option (Res (GState × Out)) :=
  match P.fn? f with
  | none => some .ub
  | some (file, fn) =>
    if g.st.loaded f.file = true then
      if resolve (commons file) (commonName fn.sec) = some f.idx ∧
          mockedName fn.sec ∉ expectNames fn.sec ++ ["mockedData"] then
        match resolve (objects file) (mockedName fn.sec), run fn.sec with
        | some k, some d =>
          match decode fn.sec d with
          | none => none
          | some e =>
            match (g.st.mocks ⟨f.file, k⟩).addExpectedCall alloc g.st.heap e with
            | .ok (h, m) =>
              match g.names ⟨f.file, k⟩ with
              | none => some .ub
              | some n => some (.ok ({ g with st := ({ g.st.setMock ⟨f.file, k⟩ m with heap := h }).addCall n }, .none))
            | .ub => some .ub
            | .exit => some .exit
        | _, _ => none
      else none
    else some .ub

/-- A call of a mock: the object is the one which its name denotes in the body of the mock, the name in the messages is the
    one of the object. -/
def gcall (P : Program) (f : FnId) (g : GState) (c : Call) : Option (Res (GState × Out)) :=
  match P.fn? f with
  | none => some .ub
  | some (file, fn) =>
    if g.st.loaded f.file = true then
      match resolveMock fn.sec (mockedName fn.sec), resolve (objects file) (mockedName fn.sec) with
      | .global, some k =>
        match g.names ⟨f.file, k⟩ with
        | none => some .ub
        | some n =>
          obind (runMock P.cfg fn.sec ⟨f.file, k⟩ { fnCfg P.conf fn.sec fn.ret fn.sizes with name := n } g.st c)
            (fun r => some (.ok ({ g with st := r.1 }, .ret r.2)))
      | _, _ => none
    else some .ub

/-- What a test does with a process of generated files. -/
inductive GOp where
  | expectAndReturn (f : FnId) (args : List MVal) (alloc : Bool)
  | expectReturnAndOutput (f : FnId) (args : List MVal) (alloc : Bool)
  | call (f : FnId) (c : Call)
  | init
  | check
  | load (i : Nat)
  | unload (i : Nat)
  | setOrder (b : Bool)
  | setPrint (b : Bool)
  | getStr
  | getArr
  | poke (a : Addr) (b : UInt8)

/-- One operation on the process. -/
def gstep (P : Program) (g : GState) : GOp → Option (Res (GState × Out))
  | .expectAndReturn f args alloc => gexpect P f g (fun s => runExpectAndReturn s args) alloc
  | .expectReturnAndOutput f args alloc => gexpect P f g (fun s => runExpectReturnAndOutput s args) alloc
  | .call f c => gcall P f g c
  | .init => obind (gresetFiles P (List.range P.files.length) g)
      (fun g => some (.ok ({ g with st := { g.st with fifo := [], errs := [] } }, .none)))
  | .check => obind (gverifyFiles P (List.range P.files.length) (g, true))
      (fun r => some (.ok (r.1, .verdict (r.2 && r.1.st.errs.isEmpty))))
  | .load i =>
    match P.files[i]? with
    | none => some .ub
    | some file =>
      if g.st.loaded i = true then some .ub
      else obind (execCtor P i file constructorBody
          { g with st := { g.st with loaded := fun j => if j = i then true else g.st.loaded j } })
        (fun g => some (.ok (g, .none)))
  | .unload i =>
    match P.files[i]? with
    | none => some .ub
    | some file =>
      if g.st.loaded i = true then
        obind (execCtor P i file destructorBody g) (fun g =>
          some (.ok ({ g with st := { g.st with loaded := fun j => if j = i then false else g.st.loaded j } }, .none)))
      else some .ub
  | .setOrder b => some (.ok ({ g with st := { g.st with order := b } }, .none))
  | .setPrint b => some (.ok ({ g with st := g.st.setPrintCallStack P.cfg b }, .none))
  | .getStr => some (.ok (g, .str (getErrorStr g.st)))
  | .getArr => some (.ok (g, .arr (getErrorArr g.st).1 (getErrorArr g.st).2))
  | .poke a b =>
    match g.st.mem a with
    | some _ => some (.ok ({ g with st := { g.st with mem := fun x => if x = a then some b else g.st.mem x } }, .none))
    | none => some .ub

/-- The process after a history, newest operation first. -/
def grun (P : Program) (m0 : Mem) : List GOp → Option (Res GState)
  | [] => some (.ok ⟨State.initial P.cfg m0, fun _ => none⟩)
  | op :: past => obind (grun P m0 past) (fun g => obind (gstep P g op) (fun r => some (.ok r.1)))

/-- What the caller of an operation observes after a history. -/
def gobserve (P : Program) (m0 : Mem) (past : List GOp) (op : GOp) : Option (Res Out) :=
  obind (grun P m0 past) (fun g => obind (gstep P g op) (fun r => some (.ok r.2)))

end EasyMock.MockCode
