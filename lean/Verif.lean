import Verif.Model.Entity
import Verif.Model.Source
import Verif.Proofs.RoundTrip
import Verif.Proofs.Faithful
import Verif.Proofs.FltPrec
import Verif.Proofs.Members
import Verif.Props.Demo
import Verif.Props.RoundTrip
import Verif.Props.Numbers
import Verif.Props.Ascii
import Verif.Props.Members
import Verif.Props.Order
import Verif.Props.Errors
import Verif.Props.Streams
import Verif.Props.Source
import Verif.Props.Objects
import Verif.Props.Transient
import Verif.Props.Failures
import Verif.Props.Text
import Verif.Props.Fixpoint
import Verif.Props.Shape
import Verif.Props.Faults
import Verif.Props.Fields
import Verif.Props.Driver
import Verif.Props.Delivery
import Verif.Props.Evolve
import Verif.Props.Schema
import Verif.Props.Grammar
import Verif.Props.Debug
import Verif.Props.Generator
import Verif.Props.Printer
import Verif.Props.Labels
import Verif.Props.Canonical
import Verif.Props.Options
import Verif.Props.Template
import Verif.Props.EndToEnd
import Verif.Props.Positions
import Verif.Props.Expected
import Verif.Props.Depth
import Verif.Props.Names
import Verif.Props.Finite
import Verif.Props.Near
import Verif.Spec.Decimal
import Verif.Proofs.Nearest
import Verif.Proofs.Twice
import Verif.Props.Nearest
import Verif.Spec.Report
import Verif.Proofs.ProtoLine
import Verif.Proofs.GenReport
import Verif.Props.Report
import Verif.Props.Suite
import Verif.Spec.Show
import Verif.Proofs.Show
import Verif.Props.Show
import Verif.Model.Counter
import Verif.Props.Counters
import Verif.Spec.Size
import Verif.Props.Size
import Verif.Proofs.Survive
import Verif.Props.Survive
import Verif.Proofs.Escapes
import Verif.Props.Escapes
import Verif.Model.HeaderTxt
import Verif.Spec.Lexical
import Verif.Props.Headers
import Verif.Proofs.Lexical
import Verif.Proofs.LexicalText
import Verif.Props.Lexical
import Verif.Spec.Message
import Verif.Props.Messages
import Verif.Spec.Cpp
import Verif.Spec.CppRun
import Verif.Spec.CppClass
import Verif.Proofs.CppLex
import Verif.Proofs.CppTokens
import Verif.Proofs.CppParse
import Verif.Proofs.CppSem
import Verif.Props.Code
import Verif.Spec.Cxx
import Verif.Spec.CxxRun
import Verif.Spec.CxxLib
import Verif.Proofs.CxxAst
import Verif.Proofs.CxxAttr
import Verif.Proofs.CxxEval
import Verif.Proofs.CxxInt
import Verif.Proofs.CxxStream
import Verif.Proofs.CxxRuntime
import Verif.Proofs.CxxTok
import Verif.Proofs.CxxUtf8
import Verif.Proofs.CxxString
import Verif.Proofs.CxxNext
import Verif.Proofs.CxxIgnore
import Verif.Proofs.CxxRecord
import Verif.Proofs.CxxReveal
import Verif.Proofs.CxxRead
import Verif.Proofs.CxxArray
import Verif.Proofs.CxxEscape
import Verif.Proofs.CxxBase64
import Verif.Props.Runtime
import Verif.Spec.CxxField
import Verif.Spec.CxxNumber
import Verif.Spec.CxxEntry
import Verif.Proofs.CxxFieldAst
import Verif.Proofs.CxxField
import Verif.Proofs.CxxNumberAst
import Verif.Proofs.CxxNumber
import Verif.Props.Classes
import Verif.Proofs.CxxEntryAst
import Verif.Proofs.CxxEntry
import Verif.Props.Calls
import Verif.Spec.CxxObject
import Verif.Proofs.CxxObjectAst
import Verif.Proofs.CxxObject
import Verif.Props.Pieces
import Verif.Model.SourceTxt
import Verif.Spec.CxxThrow
import Verif.Spec.ProtoText
import Verif.Spec.CxxProto
import Verif.Spec.CxxParse
import Verif.Proofs.ThrowAttr
import Verif.Proofs.ThrowEval
import Verif.Proofs.ProtoAst
import Verif.Proofs.ProtoInput
import Verif.Proofs.ProtoLexRun
import Verif.Proofs.ProtoParseRun
import Verif.Proofs.ProtoParsed
import Verif.Props.Parser
import Verif.Model.SourceGen
import Verif.Spec.GenText
import Verif.Spec.CxxGen
import Verif.Proofs.GenAst
import Verif.Proofs.GenLib
import Verif.Proofs.GenTypesRun
import Verif.Proofs.GenEmitRun
import Verif.Proofs.GenItemsRun
import Verif.Proofs.GenFileRun
import Verif.Proofs.GenSortRun
import Verif.Proofs.GenWholeRun
import Verif.Proofs.GenTextRun
import Verif.Proofs.GenPrinterRun
import Verif.Props.Maker
import Verif.Model.SourceTools
import Verif.Spec.ToolText
import Verif.Spec.CxxTools
import Verif.Spec.CxxShow
import Verif.Spec.CxxStart
import Verif.Proofs.ToolAst
import Verif.Proofs.ToolRun
import Verif.Proofs.ShowRun
import Verif.Proofs.StartRun
import Verif.Props.Tools
import Verif.Spec.CxxDriver
import Verif.Proofs.DriverAst
import Verif.Proofs.DriverRun
import Verif.Props.Program
import Verif.Proofs.CxxMono
import Verif.Spec.CxxLink
import Verif.Proofs.CxxLinkIgnore
import Verif.Proofs.CxxLink
import Verif.Proofs.CxxDepth
import Verif.Props.Linked
import Verif.Props.Journey
import Verif.Proofs.CxxThrowMono
import Verif.Spec.CxxProtoLink
import Verif.Proofs.CxxProtoLink
import Verif.Props.ParserLinked
import Verif.Spec.CxxMainLink
import Verif.Proofs.CxxMainLink
import Verif.Props.ProgramLinked
import Verif.Model.SourceHead
import Verif.Spec.CxxTable
import Verif.Props.Tables
import Verif.Props.Resolve
import Verif.Spec.CxxMakerLink
import Verif.Proofs.CxxMakerLink
import Verif.Props.MakerLinked
import Verif.Spec.CxxProgramLink
import Verif.Proofs.FewArgs
import Verif.Props.Printed
import Verif.Props.Complete
import Verif.Proofs.NameBound
import Verif.Proofs.CxxProgramLink
import Verif.Props.CompilerLinked
