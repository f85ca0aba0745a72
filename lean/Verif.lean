import Verif.Props.Search
import Verif.Props.Motion
import Verif.Props.Kill
import Verif.Props.Query
import Verif.Props.Frame
import Verif.Props.Evaluator
import Verif.Props.Equal
import Verif.Props.Strings
import Verif.Props.Safety
import Verif.Props.SafetyExact
import Verif.Props.PanicExact
import Verif.Props.Span
import Verif.Lemmas.LitExt
import Verif.Props.Syntax
import Verif.Props.Commands
import Verif.Props.Grammar
import Verif.Model.Json
import Verif.Model.Writer
import Verif.Props.Json
import Verif.Props.Files
import Verif.Props.EditCmd
import Verif.Props.Printed
import Verif.Props.Expressions
import Verif.Props.Tools
import Verif.Props.Pool
import Verif.Model.DocTable
import Verif.Props.Docs
import Verif.Props.TestRunner
import Verif.Props.TestShown
import Verif.Props.TestReasons
import Verif.Props.Regexp
import Verif.Props.Marks
import Verif.Props.ParseCmd
import Verif.Props.Flags
import Verif.Vectors
import Verif.VectorsGo
import Verif.Props.Literals
import Verif.Props.Formats
import Verif.Props.CommandLine
import Verif.Props.Refusal
import Verif.Props.Main
import Verif.Props.Xml
import Verif.Props.Mcp
import Verif.Props.JsonText
import Verif.Spec.JsonErrors
import Verif.Props.JsonErrors
import Verif.Props.Utf8Text
import Verif.Props.Utf8Engine
import Verif.Props.Ascii
import Verif.Props.Utf8Script
import Verif.Props.DocText
import Verif.Props.Title
import Verif.Props.JsonLines
import Verif.Props.Shortest
import Verif.Spec.Written
import Verif.Spec.Errors
import Verif.Spec.Truncate
import Verif.Props.Written
import Verif.Props.EndToEnd
import Verif.Props.Everyday
import Verif.Props.EverydayBackup
import Verif.Props.Utf8Files
import Verif.Props.Errors
import Verif.Props.Recipes
import Verif.Props.Truncate
import Verif.Props.NotJson
import Verif.Props.Promises
import Verif.Props.Schemas
import Verif.Props.Reference
import Verif.Props.Links
import Verif.Props.Others
import Verif.Props.Memory
import Verif.Props.Host
import Verif.Props.Registry
import Verif.Props.Modes
import Verif.Spec.Rerun
import Verif.Props.Rerun
import Verif.Model.GoVar
import Verif.Model.GoSource
import Verif.Model.Go
import Verif.Spec.Go
import Verif.Lemmas.Go
import Verif.Lemmas.GoBuiltins
import Verif.Lemmas.GoLoops
import Verif.Lemmas.GoMotion
import Verif.Lemmas.GoQuery
import Verif.Lemmas.GoInts
import Verif.Props.GoSource
import Verif.Props.GoScript
import Verif.Model.PgVar
import Verif.Model.PgSource
import Verif.Model.Pg
import Verif.Model.PgRun
import Verif.Spec.Pg
import Verif.Lemmas.Pg
import Verif.Lemmas.PgParse
import Verif.Lemmas.PgTokens
import Verif.Lemmas.PgReader
import Verif.Lemmas.PgEval
import Verif.Lemmas.PgValues
import Verif.Lemmas.PgJson
import Verif.Lemmas.PgFormat
import Verif.Lemmas.PgMono
import Verif.Lemmas.PgSize
import Verif.Props.PgSource
import Verif.Model.FgVar
import Verif.Model.FgSource
import Verif.Model.Fg
import Verif.Model.FgRun
import Verif.Spec.Fg
import Verif.Lemmas.Fg
import Verif.Lemmas.FgWrite
import Verif.Lemmas.FgInPlace
import Verif.Lemmas.FgEdit
import Verif.Lemmas.FgExpr
import Verif.Lemmas.FgRunEdit
import Verif.Lemmas.FgParse
import Verif.Lemmas.FgTools
import Verif.Lemmas.FgMono
import Verif.Props.FgSource
import Verif.Model.TgVar
import Verif.Model.TgSource
import Verif.Model.Tg
import Verif.Model.TgRun
import Verif.Spec.Tg
import Verif.Lemmas.Tg
import Verif.Lemmas.TgFormat
import Verif.Lemmas.TgTest
import Verif.Lemmas.TgRunTest
import Verif.Lemmas.TgFile
import Verif.Lemmas.TgCommand
import Verif.Props.TgSource
import Verif.Lemmas.TgSort
import Verif.Lemmas.TgDoc
import Verif.Lemmas.TgDocs
import Verif.Lemmas.TgDocTool
import Verif.Lemmas.TgDocCommand
import Verif.Props.TgDocs
import Verif.Model.CgVar
import Verif.Model.Cg
import Verif.Model.CgSource
import Verif.Model.CgRun
import Verif.Spec.Cg
import Verif.Lemmas.Cg
import Verif.Lemmas.CgCommands
import Verif.Props.CgSource
import Verif.Model.Link
import Verif.Spec.Link
import Verif.Lemmas.Link
import Verif.Lemmas.LinkRun
import Verif.Lemmas.LinkStays
import Verif.Lemmas.LinkEdit
import Verif.Lemmas.LinkMore
import Verif.Lemmas.LinkFree
import Verif.Props.Linked
import Verif.Props.LinkedMore
import Verif.Lemmas.LinkExpr
import Verif.Lemmas.LinkExprRun
import Verif.Props.LinkedExpr
import Verif.VectorsDoc
