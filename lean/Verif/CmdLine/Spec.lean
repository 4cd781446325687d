import Verif.CmdLine.Model

/-!
# What an argument vector says, independently of the parser

Options and values are recognised by their neighbours alone: an argument that starts with `-` never is a value.
-/

namespace EasyMock.CmdLine

/-- The options that take a value. -/
def valueOptions : List String :=
  ["-i", "-o", "--mock-only", "--cwd", "--generate-attribute", "--ignore-field-generation-of", "--ignore-generation-of",
   "--generate-comparator-of"]

/-- All options of the tool. -/
def toolOptions : List String :=
  valueOptions ++ ["-h", "--help", "--generate-types", "--mock-cpp", "--ignore-parser-error", "--generate-included-functions"]

/-- The values given to an option, in order. -/
def valuesOf (opt : String) : List String → List String
  | [] => []
  | [_] => []
  | a :: v :: r => (if a = opt ∧ dash v = false then [v] else []) ++ valuesOf opt (v :: r)

/-- Is `a` the value of the argument before it? -/
def isValue (prev : Option String) (a : String) : Prop := (∃ p ∈ valueOptions, prev = some p) ∧ dash a = false

instance (prev : Option String) (a : String) : Decidable (isValue prev a) := by unfold isValue; infer_instance

/-- The arguments that are neither an option of the tool nor a value of one. A `-i` or `-o` at the very end is not
recognised as an option. -/
def forwarded (prev : Option String) : List String → List String
  | [] => []
  | a :: r =>
    (if isValue prev a ∨ (a ∈ toolOptions ∧ ¬ ((a = "-i" ∨ a = "-o") ∧ r = [])) then [] else [a]) ++ forwarded (some a) r

/-- The parser neither complained nor printed the help. -/
def Accepted (o : Options) : Prop := o.errorMessage = "" ∧ o.helpMessage = ""

/-! ## Argument vectors made of complete groups -/

/-- A flag, an option with its value, or an argument that is not for the tool. -/
inductive Group where
  | opt (name v : String)
  | flag (name : String)
  | extra (a : String)
  deriving DecidableEq, Repr

/-- The arguments of a group. -/
def Group.render : Group → List String
  | .opt n v => [n, v]
  | .flag n => [n]
  | .extra a => [a]

/-- The flags of the tool, apart from help. -/
def flags : List String := ["--generate-types", "--mock-cpp", "--ignore-parser-error", "--generate-included-functions"]

/-- A group as the user writes it: values do not start with a dash, the input is a file and the output a directory. -/
def Group.Valid (fs : FS) (dir : String) : Group → Prop
  | .opt n v => n ∈ valueOptions ∧ dash v = false ∧ (n = "-i" → v ≠ "" ∧ fs.isRegular dir v = true) ∧
      (n = "-o" → v ≠ "" ∧ fs.isDir dir v = true) ∧ (n = "--cwd" → v ≠ "")
  | .flag n => n ∈ flags
  | .extra a => a ∉ toolOptions

/-- The value of the group if it is the option `n`. -/
def Group.valueOf (n : String) : Group → Option String
  | .opt m v => if m = n then some v else none
  | _ => none

/-- The argument if it is not for the tool. -/
def Group.extraOf : Group → Option String
  | .extra a => some a
  | _ => none

/-- The values of an option in a list of groups. -/
def given (n : String) (gs : List Group) : List String := gs.filterMap (Group.valueOf n)

/-- The complete argument vector. -/
def renderAll (gs : List Group) : List String := gs.flatMap Group.render

end EasyMock.CmdLine
