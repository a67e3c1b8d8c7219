import Verif.Model.Basic
import Verif.Model.Uleb
import Verif.Model.Protocol
import Verif.Model.Types
import Verif.Proofs.Uleb
import Verif.Proofs.Sim
import Verif.Proofs.Adequate
import Verif.Proofs.Inputs
import Verif.Proofs.SkipInt
import Verif.Proofs.Prim
import Verif.Proofs.Reads
import Verif.Props.Primitive
import Verif.Props.Header
import Verif.Props.Strings
import Verif.Spec.Ops
import Verif.Proofs.Ops
import Verif.Props.Inputs
import Verif.Spec.Wire
import Verif.Spec.Encoding
import Verif.Proofs.Wire
import Verif.Proofs.EncodingSet
import Verif.Props.Wire
import Verif.Spec.Schema
import Verif.Model.Format
import Verif.Proofs.Writer
import Verif.Proofs.Header
import Verif.Proofs.RoundTrip
import Verif.Props.RoundTrip
import Verif.Proofs.SkipWritten
import Verif.Proofs.Conform
import Verif.Props.Writing
import Verif.Props.EncodingSet
import Verif.Spec.Values
import Verif.Proofs.Typed
import Verif.Props.Reading
import Verif.Spec.Struct
import Verif.Proofs.Struct
import Verif.Props.Structs
import Verif.Spec.Evolution
import Verif.Proofs.Evolution
import Verif.Props.Evolution
import Verif.Model.Parquet
import Verif.Spec.Parquet
import Verif.Props.Parquet
import Verif.Props.PageIndex
import Verif.Model.Schema
import Verif.Spec.ParquetSchema
import Verif.Props.ParquetTypes
import Verif.Proofs.ParquetSchema
import Verif.Props.ParquetSchema
import Verif.Spec.Size
import Verif.Props.Size
import Verif.Props.ParquetFile
import Verif.Model.Generator
import Verif.Spec.Generator
import Verif.Props.Generator
import Verif.Model.Macros
import Verif.Model.FormatTokens
import Verif.Spec.Macros
import Verif.Props.Macros
import Verif.Model.SchemaAlloc
import Verif.Props.SchemaAlloc
import Verif.Model.FieldName
import Verif.Props.FieldName
import Verif.Model.ThriftTokens
import Verif.Spec.Migration
import Verif.Proofs.Migration
import Verif.Props.Migration
import Verif.Spec.Decoding
import Verif.Proofs.Decoding
import Verif.Props.Decoding
import Verif.Spec.Protocol
import Verif.Proofs.Protocol
import Verif.Proofs.ProtocolWrite
import Verif.Props.Protocol
import Verif.Model.Partial
import Verif.Spec.Partial
import Verif.Proofs.Partial
import Verif.Proofs.Cut
import Verif.Props.Partial
import Verif.Props.RepoTests
import Verif.Props.RepoFile
import Verif.Spec.Borrow
import Verif.Props.Borrow
import Verif.Spec.Work
import Verif.Props.Work
import Verif.Model.Print
import Verif.Spec.Print
import Verif.Props.Print
import Verif.Model.ThriftLexer
import Verif.Spec.ThriftLexer
import Verif.Proofs.ThriftLexer
import Verif.Props.ThriftLexer
import Verif.Model.ThriftParser
import Verif.Spec.ThriftParser
import Verif.Proofs.ThriftParser
import Verif.Props.ThriftParser
import Verif.Spec.ThriftDocument
import Verif.Props.ThriftDocument
import Verif.Model.GeneratorCode
import Verif.Spec.GeneratorCode
import Verif.Props.GeneratorCode
import Verif.Model.ThriftText
import Verif.Props.ThriftPieces
import Verif.Props.ThriftText
import Verif.Props.ParquetThrift
import Verif.Props.Refusal
import Verif.Spec.Order
import Verif.Props.Order
import Verif.Props.Shortest
import Verif.Props.Depth
import Verif.Spec.Left
import Verif.Proofs.PartialSim
import Verif.Props.Left
import Verif.Model.Derived
import Verif.Spec.Derived
import Verif.Props.Derived
import Verif.Spec.InStep
import Verif.Props.InStep
import Verif.Model.Code
import Verif.Proofs.Code
import Verif.Props.Code
import Verif.Model.RustText
import Verif.Model.MacroText
import Verif.Model.MacroRules
import Verif.Model.MacroTable
import Verif.Spec.RustCode
import Verif.Proofs.Expansion
import Verif.Proofs.ExpansionUnion
import Verif.Proofs.ExpansionThrift
import Verif.Props.MacroText
import Verif.Model.GeneratorText
import Verif.Spec.GeneratedCode
import Verif.Proofs.GeneratedText
import Verif.Proofs.GeneratedNames
import Verif.Proofs.Normal
import Verif.Proofs.GeneratedItems
import Verif.Proofs.GeneratedStruct
import Verif.Proofs.GeneratedUnion
import Verif.Props.GeneratorText
import Verif.Model.Debug
import Verif.Spec.Debug
import Verif.Proofs.Debug
import Verif.Proofs.DebugCut
import Verif.Props.Debug
import Verif.Spec.Programs
import Verif.Props.Programs
import Verif.Spec.Errors
import Verif.Props.Errors
import Verif.Spec.ErrorText
import Verif.Props.ErrorText
import Verif.Spec.Overflow
import Verif.Proofs.Overflow
import Verif.Proofs.OverflowPanics
import Verif.Props.Overflow
import Verif.Spec.Text
import Verif.Proofs.Text
import Verif.Props.Text
import Verif.Spec.Sse2
import Verif.Proofs.Sse2
import Verif.Props.Sse2
import Verif.Spec.Builds
import Verif.Props.Builds
import Verif.Spec.PageIndex
import Verif.Props.PageIndexEnds
import Verif.Spec.Reports
import Verif.Proofs.Reports
import Verif.Proofs.ReportsOccur
import Verif.Props.Reports
import Verif.Spec.SchemaReports
import Verif.Props.SchemaReports
import Verif.Model.Benches
import Verif.Props.Benches
import Verif.Model.RustSyntax
import Verif.Model.RuntimeText
import Verif.Model.RuntimeTable
import Verif.Model.RustRun
import Verif.Props.RuntimeCode
import Verif.Model.TypesSyntax
import Verif.Model.TypesText
import Verif.Model.TypesTable
import Verif.Model.TypesRun
import Verif.Model.TypesProgram
import Verif.Props.TypesCode
import Verif.Model.PqSyntax
import Verif.Model.PqText
import Verif.Model.PqTable
import Verif.Model.PqRun
import Verif.Model.PqProgram
import Verif.Spec.LibCode
import Verif.Props.LibCode
import Verif.Spec.SchemaCode
import Verif.Props.SchemaCode
import Verif.Spec.SchemaMain
import Verif.Props.SchemaMain
import Verif.Spec.Decoder
import Verif.Props.Decoder
import Verif.Spec.Encoder
import Verif.Props.Encoder
import Verif.Model.EnumOrder
import Verif.Props.EnumOrder
import Verif.Spec.Refused
import Verif.Proofs.Refused
import Verif.Props.SchemaRefused
import Verif.Model.DumpText
import Verif.Proofs.DumpRun
import Verif.Props.DumpCode
import Verif.Model.ErrorCode
import Verif.Proofs.ErrorCode
import Verif.Props.ErrorCode
import Verif.Props.EndToEnd
