import Verif.Basic
import Verif.Props.CString
import Verif.Props.Framework1
import Verif.Props.Framework2
import Verif.Props.Framework3
import Verif.Props.Framework4
import Verif.Props.Mocked
import Verif.Props.Matcher
import Verif.Props.CmdLine
import Verif.Props.Types
import Verif.Props.Types2
import Verif.Props.StructCmp
import Verif.Props.Gen
import Verif.Props.Gen2
import Verif.Props.Gen3
import Verif.Props.Gen4
import Verif.Props.Gen5
import Verif.Props.MockCode
import Verif.MockCode.File
import Verif.MockCode.FileLemmas
import Verif.MockCode.Reference
import Verif.MockCode.ReferenceLemmas
import Verif.Props.Reference
import Verif.Props.File
import Verif.Props.Emit
import Verif.Props.Parser
import Verif.Props.ParserTypes
import Verif.Props.Attr
import Verif.Props.CDecl
import Verif.CFile.Spec
import Verif.CFile.Model
import Verif.CFile.Lemmas
import Verif.CFile.Frame
import Verif.CFile.Header
import Verif.CFile.HeaderText
import Verif.CFile.HeaderWhole
import Verif.CFile.Code
import Verif.CFile.SourceModel
import Verif.CFile.CodeLemmas
import Verif.CFile.Lines
import Verif.CFile.Texts
import Verif.CFile.Define
import Verif.CFile.Bodies
import Verif.CFile.Bodies2
import Verif.CFile.SourceRead
import Verif.CFile.CmpDeclared
import Verif.CFile.Meaning
import Verif.CFile.SourceItems
import Verif.Props.CFile
import Verif.Props.Source
import Verif.CDecl.Lists
import Verif.CFile.Typed
import Verif.Props.Typed
import Verif.Props.TypedProgram
import Verif.CDecl.CppSpec
import Verif.CDecl.Cpp
import Verif.Props.TypedCpp
import Verif.Props.Output
import Verif.CFile.TypedText
import Verif.CFile.ProgramText
import Verif.CFile.CmpText
import Verif.Props.CmpType
import Verif.Props.TypedFile
import Verif.CFile.ProgramCpp
import Verif.Props.TypedCppFile
import Verif.Parser.Alive
import Verif.Parser.AliveLemmas
import Verif.Props.Member
import Verif.CFile.TypesModel
import Verif.CFile.TypesSpec
import Verif.CFile.TypesRead
import Verif.CFile.TypesMembers
import Verif.CFile.TypesItems
import Verif.CFile.TypesFile
import Verif.Props.TypesText
import Verif.CFile.LocalModel
import Verif.CFile.LocalText
import Verif.Props.LocalDecl
import Verif.Framework.Backtrace
import Verif.Props.Backtrace
import Verif.CFile.DefinedSpec
import Verif.Props.Defined
import Verif.Disk.Model
import Verif.Props.Disk
import Verif.Parser.Flags
import Verif.Props.Flags
import Verif.Macro.Spec
import Verif.Macro.Model
import Verif.Macro.Lemmas
import Verif.Macro.Written
import Verif.Props.Macro
import Verif.Macro.Expand
import Verif.Macro.Agree
import Verif.Props.MacroText
import Verif.CDecl.Members
import Verif.CFile.MemberSpec
import Verif.StructCmp.ProgSpec
import Verif.StructCmp.ProgLemmas
import Verif.Props.ProgCmp
import Verif.StructCmp.CallModel
import Verif.Props.CallCmp
import Verif.Props.ReadCmp
import Verif.Props.Threads
import Verif.Props.Nested
import Verif.StructCmp.TypedefSpec
import Verif.StructCmp.TypedefLemmas
import Verif.Props.TypedefCmp
import Verif.CFile.MemberText
import Verif.CFile.MemberProg
import Verif.Props.Members
import Verif.StructCmp.PrintfSpec
import Verif.StructCmp.FormatModel
import Verif.StructCmp.FormatLemmas
import Verif.StructCmp.OwnerLemmas
import Verif.StructCmp.FormatText
import Verif.Props.Format
import Verif.Axioms
