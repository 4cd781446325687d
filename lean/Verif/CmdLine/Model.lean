import Verif.Basic

/-!
# Model of the command line of `EasyMockGenerate`

* `src/easyMockGenerate/src/CmdLineParser/CmdLineParser.cpp:16-238` (all of it),
* `src/easyMockGenerate/include/CommandLineParserItf.h:13-44` (names and messages),
* `src/easyMockGenerate/src/main.cpp:20-110`,
* `src/easyMockGenerate/src/MainCodeGenerator.cpp:11-22`,
* `src/easyMockGenerate/src/CTemplateGenerator/CodeGeneratorCTemplate.cpp` (GEN) 1201-1255 and 2372-2419: which files are written.

Simplifications: arguments are strings; the argument vector is given without the program name. The file system is a
parameter; a `std::filesystem` query that throws is not modelled. A `std::unordered_set` is a list without
duplicates in order of insertion. The header parser is a parameter (success or failure). The printed texts are not
modelled apart from the error and help messages of the parser; the help text is a constant non-empty string.
-/

namespace EasyMock.CmdLine

/-- `EasyMockOptions`, CommandLineParserItf.h:133-205. -/
structure Options where
  errorMessage : String := ""
  helpMessage : String := ""
  input : String := ""
  outputDir : String := ""
  cwd : String := ""
  mockOnly : List String := []
  extraArgs : List String := []
  genTypes : Bool := false
  genIncluded : Bool := false
  attrs : List String := []
  ignoreTypes : List String := []
  ignoreFuns : List String := []
  comparators : List String := []
  mockCpp : Bool := false
  ignoreParserError : Bool := false
  deriving DecidableEq, Repr

/-- `std::unordered_set::insert`. -/
def insert (l : List String) (x : String) : List String := if x ∈ l then l else l ++ [x]

/-- The file system as seen from a working directory (first argument). -/
structure FS where
  /-- `fs::is_regular_file` -/
  isRegular : String → String → Bool
  /-- `fs::is_directory`, `stat` + `S_IFDIR` -/
  isDir : String → String → Bool
  /-- an `std::ifstream` on the path is good -/
  readable : String → String → Bool
  /-- `chdir`: the new working directory -/
  chdir : String → String → Option String
  /-- creating and writing the file succeeds -/
  writable : String → String → Bool

/-- Does the string start with `-`? (`s[0] == '-'`, false for the empty string) -/
def dash (s : String) : Bool := s.toList.head? == some '-'

/-- The options of the tool, in the order of the tests in the parser. -/
inductive Key where
  | input | output | mockOnly | help | cwd | attr | types | cpp | ignoreErr | included | ignoreField | ignoreGen | comparator
  | other
  deriving DecidableEq, Repr

/-- CommandLineParserItf.h:13-26 and the comparisons of CmdLineParser.cpp:40-221. -/
def keyOf (s : String) : Key :=
  if s = "-i" then .input
  else if s = "-o" then .output
  else if s = "--mock-only" then .mockOnly
  else if s = "--help" ∨ s = "-h" then .help
  else if s = "--cwd" then .cwd
  else if s = "--generate-attribute" then .attr
  else if s = "--generate-types" then .types
  else if s = "--mock-cpp" then .cpp
  else if s = "--ignore-parser-error" then .ignoreErr
  else if s = "--generate-included-functions" then .included
  else if s = "--ignore-field-generation-of" then .ignoreField
  else if s = "--ignore-generation-of" then .ignoreGen
  else if s = "--generate-comparator-of" then .comparator
  else .other

/-- The error messages, CommandLineParserItf.h:28-40. -/
def errInputMissing := "Error: The input header file is not provided"
def errOutputMissing := "Error: The output directory is not provided"
def errMockOnlyMissing := "Error: Argument to --mock-only is missing"
def errCwdMissing := "Error: Argument to --cwd is missing"
def errCwdTwice := "Error: Argument to --cwd is given more than once"
def errAttrMissing := "Error: Argument --generate-attribute needs a value"
def errIgnoreFieldMissing := "Error: Argument --ignore-field-generation-of needs a value"
def errIgnoreGenMissing := "Error: Argument --ignore-generation-of needs a value"
def errComparatorMissing := "Error: Argument --generate-comparator-of needs a value"
def errInputTwice := "Error: -i argument can be used only once"
def errOutputTwice := "Error: -o argument can be used only once"
def errNotRegular := "Error: Path given to -i isn't a regular file"
def errNotDir := "Error: Path given to -o isn't a directory"
/-- `g_helpMessage`, CommandLineParserItf.h:42-118 (abridged). -/
def helpText := "Generate mocks to be used into unit tests."

/-- The checks after the loop, CmdLineParser.cpp:226-237. -/
def finish (o : Options) : Options :=
  if o.input = "" then { o with errorMessage := errInputMissing }
  else if o.outputDir = "" then { o with errorMessage := errOutputMissing }
  else o

/-- What the body of the loop does with the current argument: leave the function, or go on after one or two arguments. -/
inductive Act where
  | stop (o : Options)
  | one (o : Options)
  | two (o : Options)
  deriving DecidableEq, Repr

/-- The body of the loop of `getParsedArguments`, CmdLineParser.cpp:38-224: current argument and the one behind it
(`none` when `hasOneMoreArgument` is false). -/
def act (fs : FS) (dir : String) (o : Options) (a : String) (next : Option String) : Act :=
  match keyOf a, next with
  | .input, some v =>                                                  -- 40-62
    if o.input ≠ "" then .stop { o with errorMessage := errInputTwice }
    else if dash v then .one o
    else if fs.isRegular dir v = false then .stop { o with errorMessage := errNotRegular }
    else .two { o with input := v }
  | .output, some v =>                                                 -- 63-85
    if o.outputDir ≠ "" then .stop { o with errorMessage := errOutputTwice }
    else if dash v then .one o
    else if fs.isDir dir v = false then .stop { o with errorMessage := errNotDir }
    else .two { o with outputDir := v }
  | .mockOnly, some v =>                                               -- 86-97
    if dash v then .stop { o with errorMessage := errMockOnlyMissing }
    else .two { o with mockOnly := insert o.mockOnly v }
  | .mockOnly, none => .stop { o with errorMessage := errMockOnlyMissing }      -- 98-102
  | .help, _ => .stop { o with helpMessage := helpText }               -- 104-108
  | .cwd, some v =>                                                    -- 109-126
    if o.cwd ≠ "" then .stop { o with cwd := "", errorMessage := errCwdTwice }
    else if dash v then .stop { o with errorMessage := errCwdMissing }
    else .two { o with cwd := v }
  | .cwd, none =>                                                      -- 127-131
    if o.cwd ≠ "" then .stop { o with cwd := "", errorMessage := errCwdTwice }
    else .stop { o with errorMessage := errCwdMissing }
  | .attr, some v =>                                                   -- 133-144
    if dash v then .stop { o with errorMessage := errAttrMissing }
    else .two { o with attrs := insert o.attrs v }
  | .attr, none => .stop { o with errorMessage := errAttrMissing }     -- 145-149
  | .types, _ => .one { o with genTypes := true }                      -- 151-154
  | .cpp, _ => .one { o with mockCpp := true }                         -- 155-158
  | .ignoreErr, _ => .one { o with ignoreParserError := true }         -- 159-162
  | .included, _ => .one { o with genIncluded := true }                -- 163-166
  | .ignoreField, some v =>                                            -- 167-178
    if dash v then .stop { o with errorMessage := errIgnoreFieldMissing }
    else .two { o with ignoreTypes := insert o.ignoreTypes v }
  | .ignoreField, none => .stop { o with errorMessage := errIgnoreFieldMissing }   -- 179-183
  | .ignoreGen, some v =>                                              -- 185-196
    if dash v then .stop { o with errorMessage := errIgnoreGenMissing }
    else .two { o with ignoreFuns := insert o.ignoreFuns v }
  | .ignoreGen, none => .stop { o with errorMessage := errIgnoreGenMissing }       -- 197-201
  | .comparator, some v =>                                             -- 203-214
    if dash v then .stop { o with errorMessage := errComparatorMissing }
    else .two { o with comparators := insert o.comparators v }
  | .comparator, none => .stop { o with errorMessage := errComparatorMissing }     -- 215-219
  | .input, none | .output, none | .other, _ => .one { o with extraArgs := o.extraArgs ++ [a] }   -- 221-224

/-- The loop of `getParsedArguments`, CmdLineParser.cpp:36-225, over the remaining arguments. -/
def loop (fs : FS) (dir : String) (o : Options) : List String → Options
  | [] => finish o
  | [a] =>
    match act fs dir o a none with
    | .stop o' => o'
    | .one o' | .two o' => finish o'
  | a :: v :: rest =>
    match act fs dir o a (some v) with
    | .stop o' => o'
    | .one o' => loop fs dir o' (v :: rest)
    | .two o' => loop fs dir o' rest

/-- `CmdLineParser::getParsedArguments`, CmdLineParser.cpp:28-238, run in directory `dir`. -/
def parse (fs : FS) (dir : String) (args : List String) : Options := loop fs dir {} args

/-! ## `main` -/

/-- The configuration of the header parser, main.cpp:48-54. -/
structure ParserCfg where
  input : String
  flags : List String
  mockOnly : List String
  ignoreTypes : List String
  ignoreFuns : List String
  included : Bool
  forceCpp : Bool
  deriving DecidableEq, Repr

/-- The configuration of the generator, main.cpp:56-61. -/
structure GenCfg where
  mockOnly : List String
  attrs : List String
  genTypes : Bool
  comparators : List String
  cpp : Bool
  deriving DecidableEq, Repr

/-- main.cpp:48-54, 63. -/
def parserCfg (o : Options) : ParserCfg :=
  { input := o.input, flags := o.extraArgs, mockOnly := o.mockOnly, ignoreTypes := o.ignoreTypes, ignoreFuns := o.ignoreFuns,
    included := o.genIncluded, forceCpp := o.mockCpp }

/-- main.cpp:56-61. -/
def genCfg (o : Options) : GenCfg :=
  { mockOnly := o.mockOnly, attrs := o.attrs, genTypes := o.genTypes, comparators := o.comparators, cpp := o.mockCpp }

/-- What a run of the tool leaves behind. -/
structure Run where
  exitCode : Nat
  /-- Working directory and configuration of the header parser, when it was run. -/
  parsed : Option (String × ParserCfg) := none
  /-- Configuration of the generator, when it was run. -/
  generated : Option GenCfg := none
  /-- Files created and completely written. -/
  written : List String := []
  deriving DecidableEq, Repr

/-- The file name up to the last directory separator removed, then up to the last dot (GEN:1226, 2377). -/
def stem (path : String) : String :=
  let name := ((path.toList.reverse.takeWhile (· ≠ '/')).reverse)
  String.ofList (if '.' ∈ name then ((name.reverse.dropWhile (· ≠ '.')).drop 1).reverse else name)

/-- The name of a generated file, GEN:2375-2379. -/
def outFile (outDir input ext : String) : String := outDir ++ "/easyMock_" ++ stem input ++ "." ++ ext

/-- `generateCodeImplementation`, GEN:1237-1254: the source file, then the header. -/
def generate (fs : FS) (dir : String) (o : Options) : Bool × List String :=
  let src := outFile o.outputDir o.input (if o.mockCpp then "cpp" else "c")
  let hdr := outFile o.outputDir o.input "h"
  if fs.writable dir src = false then (false, [])
  else if fs.writable dir hdr = false then (false, [src])
  else (true, [src, hdr])

/-- `MainCodeGenerator::generateCode`, MainCodeGenerator.cpp:11-22. `hdrOk` is the result of the header parser. -/
def generateCode (fs : FS) (dir : String) (o : Options) (hdrOk : Bool) : Bool × Option GenCfg × List String :=
  if hdrOk = false ∧ o.ignoreParserError = false then (false, none, [])
  else (true, some (genCfg o), (generate fs dir o).2)

/-- `validateParameter`, main.cpp:69-84. -/
def validate (fs : FS) (dir : String) (o : Options) : Bool := fs.readable dir o.input && fs.isDir dir o.outputDir

/-- `main`, main.cpp:20-67, started in directory `dir`. `hdrOk dir cfg` is the result of parsing the header. -/
def mainRun (fs : FS) (hdrOk : String → ParserCfg → Bool) (dir : String) (args : List String) : Run :=
  let o := parse fs dir args
  if o.helpMessage ≠ "" then { exitCode := 0 }
  else if o.errorMessage ≠ "" then { exitCode := 1 }
  else
    match (if o.cwd ≠ "" then fs.chdir dir o.cwd else some dir) with
    | none => { exitCode := 1 }
    | some d =>
      if validate fs d o = false then { exitCode := 1 }
      else
        let r := generateCode fs d o (hdrOk d (parserCfg o))
        { exitCode := if r.1 then 0 else 1, parsed := some (d, parserCfg o), generated := r.2.1, written := r.2.2 }

end EasyMock.CmdLine
