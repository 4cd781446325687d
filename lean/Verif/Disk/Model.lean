import Verif.CmdLine.Model

/-!
# Disk: what a run leaves in the output directory

Model of `generateCodeToFile` and of the end of `generateCodeImplementation` in
`src/easyMockGenerate/src/CTemplateGenerator/CodeGeneratorCTemplate.cpp` (GEN) 2372-2419 and 1237-1254, on the contents of files.

Simplifications.
* The texts are parameters (they are the subject of `Verif.CFile`).
* What is printed (GEN:2382-2397 and 2401, 2407) is not represented.
* `resolve` says which file `fopen(path, "w+")` opens; two paths may lead to one file.  It stays the same during a run.
-/

namespace EasyMock.Disk

open EasyMock.CmdLine (stem)

/-- The contents of files. -/
abbrev Files (F : Type) := F → Option (List Char)

/-- What happens to a text on its way to an open file: all of it arrives; `fprintf` fails when `n` characters have arrived; `fprintf`
    has put the text into the buffer of the stream, and `fclose` fails when `n` characters have arrived. -/
inductive Write where
  | done
  | failed (n : Nat)
  | lost (n : Nat)
  deriving DecidableEq, Repr

/-- The argument `p_generatedCode.c_str()` of `"%s"`, GEN:2405: the text up to the first null character. -/
def cString (t : String) : List Char := t.toList.takeWhile (· ≠ '\x00')

variable {F : Type} [DecidableEq F]

/-- A file gets new contents. -/
def put (d : Files F) (f : F) (t : List Char) : Files F := fun g => if g = f then some t else d g

/-- The name of the file, GEN:2376-2380; `name` is the file name of the mocked header (GEN:1227). -/
def outName (outDir name ext : String) : String := outDir ++ "/easyMock_" ++ stem name ++ "." ++ ext

/-- `generateCodeToFile`, GEN:2372-2419: `"w+"` empties the file; the result of `fclose` is not looked at. -/
def codeToFile (resolve : String → Option F) (w : Write) (d : Files F) (outDir name ext text : String) : Bool × Files F :=
  match resolve (outName outDir name ext) with
  | none => (false, d)
  | some f =>
    match w with
    | .done => (true, put d f (cString text))
    | .failed n => (false, put d f ((cString text).take n))
    | .lost n => (true, put d f ((cString text).take n))

/-- A run of the generator: output directory, mocked header, language, the texts of the source and of the header, and what happens to
    them. -/
structure Run where
  outDir : String
  name : String
  cpp : Bool := false
  source : String
  header : String
  sourceWrite : Write := .done
  headerWrite : Write := .done

/-- `generateCodeImplementation`, GEN:1237-1254: the source, then the header. -/
def generate (resolve : String → Option F) (d : Files F) (r : Run) : Bool × Files F :=
  let s := codeToFile resolve r.sourceWrite d r.outDir r.name (if r.cpp then "cpp" else "c") r.source
  if s.1 = false then (false, s.2)
  else codeToFile resolve r.headerWrite s.2 r.outDir r.name "h" r.header

/-- One run after the other, as a build which mocks several headers does. -/
def build (resolve : String → Option F) (d : Files F) (rs : List Run) : Files F :=
  rs.foldl (fun d r => (generate resolve d r).2) d

end EasyMock.Disk
