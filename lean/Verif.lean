import Verif.Base.WordTree
import Verif.Props.Run
import Verif.Props.Parser
import Verif.Props.Compare
import Verif.Props.Tables
import Verif.Props.Objects
import Verif.Props.Order
import Verif.Props.Errors
import Verif.Props.Independence
import Verif.Props.Normal
import Verif.Props.Converge
import Verif.Props.ColumnOrder
import Verif.Props.Columns
import Verif.Spec.Agrees
import Verif.Proofs.Agrees
import Verif.Props.Agrees
import Verif.Spec.Settles
import Verif.Proofs.Settles
import Verif.Props.Settles
import Verif.Model.Keywords
import Verif.Model.Scanner
import Verif.Model.Lexer
import Verif.Proofs.ScannerLength
import Verif.Proofs.ScannerLocal
import Verif.Proofs.ScannerCompose
import Verif.Model.Format
import Verif.Spec.Lexical
import Verif.Proofs.ScannerReads
import Verif.Proofs.ScannerQuotes
import Verif.Proofs.FormatNames
import Verif.Props.Scanner
import Verif.Spec.Parsed
import Verif.Proofs.Conversion
import Verif.Props.Conversion
import Verif.Spec.StatementText
import Verif.Proofs.ReadsAs
import Verif.Proofs.StatementText
import Verif.Props.StatementText
import Verif.Spec.Crash
import Verif.Proofs.Crash
import Verif.Proofs.Wellformed
import Verif.Props.Crash
import Verif.Spec.Direction
import Verif.Props.Direction
import Verif.Model.YyTables
import Verif.Model.Yy
import Verif.Spec.Grammar
import Verif.Spec.Parsing
import Verif.Proofs.YyCertificate
import Verif.Proofs.YyCheck
import Verif.Proofs.YyShifts
import Verif.Proofs.YyGotos
import Verif.Proofs.YyNames
import Verif.Proofs.YyFacts
import Verif.Proofs.YyDriver
import Verif.Proofs.YyRuns
import Verif.Proofs.YySound
import Verif.Proofs.YyList
import Verif.Props.Parsing
import Verif.Model.SqlNodes
import Verif.Model.SymType
import Verif.Model.YyActions
import Verif.Model.TokenCodes
import Verif.Model.SqlParse
import Verif.Proofs.SqlShrinks
import Verif.Props.SqlText
import Verif.Proofs.YyLast
import Verif.Proofs.YyCasts
import Verif.Proofs.YyCodes
import Verif.Proofs.YyKeeps
import Verif.Proofs.WholeClasses
import Verif.Proofs.WholeTable
import Verif.Proofs.WholeLemmas
import Verif.Proofs.WholeRules
import Verif.Proofs.TokenMade
import Verif.Spec.Trouble
import Verif.Proofs.WholeLexer
import Verif.Proofs.WholeTokens
import Verif.Proofs.WholeHost
import Verif.Proofs.WholeRun
import Verif.Props.SqlCrash
import Verif.Proofs.YyComplete
import Verif.Proofs.SqlReads
import Verif.Spec.Condition
import Verif.Spec.Written
import Verif.Proofs.WrittenBase
import Verif.Proofs.WrittenList
import Verif.Proofs.WrittenType
import Verif.Proofs.WrittenTypeReads
import Verif.Proofs.WrittenTy
import Verif.Proofs.ExTree
import Verif.Proofs.ExValue
import Verif.Proofs.ExReads
import Verif.Proofs.ExReadsAll
import Verif.Proofs.ExReadsCore
import Verif.Proofs.WrittenCol
import Verif.Proofs.WrittenColReads
import Verif.Proofs.WrittenColumn
import Verif.Proofs.WrittenIndex
import Verif.Proofs.WrittenIndexReads
import Verif.Proofs.WrittenTable
import Verif.Spec.WrittenMore
import Verif.Proofs.WrittenMore
import Verif.Proofs.WrittenMoreReads
import Verif.Spec.Layout
import Verif.Proofs.Layout
import Verif.Props.CreateTable
import Verif.Props.Statements
import Verif.Model.Adapter
import Verif.Spec.Adapter
import Verif.Proofs.LayoutText
import Verif.Proofs.LayoutCheck
import Verif.Proofs.PgDump
import Verif.Proofs.PgTable
import Verif.Proofs.PgStatements
import Verif.Proofs.PgFile
import Verif.Proofs.Blocks
import Verif.Proofs.PgNormal
import Verif.Proofs.PgPolicy
import Verif.Props.Adapter
import Verif.Spec.StoredText
import Verif.Proofs.StoredText
import Verif.Proofs.TableSet
import Verif.Proofs.LiteRun
import Verif.Props.StoredText
import Verif.Model.PgQuery
import Verif.Spec.PgServer
import Verif.Proofs.PgQuery
import Verif.Proofs.Reorder
import Verif.Proofs.ReorderText
import Verif.Proofs.PgServer
import Verif.Spec.MsAdapter
import Verif.Proofs.MsDump
import Verif.Proofs.MsFile
import Verif.Proofs.MsNormal
import Verif.Props.Reorder
import Verif.Props.PgServer
import Verif.Props.MsAdapter
import Verif.Model.Command
import Verif.Spec.Url
import Verif.Proofs.Url
import Verif.Props.Command
import Verif.Spec.Rewritten
import Verif.Proofs.YyAlike
import Verif.Proofs.AnyLayout
import Verif.Proofs.Retext
import Verif.Proofs.RetextPairs
import Verif.Props.AnyLayout
import Verif.Spec.Query
import Verif.Proofs.QueryTree
import Verif.Proofs.ViewSim
import Verif.Proofs.SourceReads
import Verif.Proofs.QueryReads
import Verif.Props.Views
import Verif.Spec.ViewRows
import Verif.Proofs.ViewText
import Verif.Proofs.ViewDump
import Verif.Props.ViewExports
import Verif.Spec.Change
import Verif.Proofs.ChangeTree
import Verif.Proofs.ChangeReads
import Verif.Spec.TriggerRows
import Verif.Proofs.TriggerDump
import Verif.Props.Triggers
import Verif.Spec.MsObjects
import Verif.Proofs.MsObjectDump
import Verif.Props.MsObjects
import Verif.Spec.Rearranged
import Verif.Proofs.Rearranged
import Verif.Proofs.RearrangedText
import Verif.Props.Rearranged
import Verif.Spec.RearrangedFile
import Verif.Proofs.RearrangedFile
import Verif.Props.RearrangedFile
import Verif.Model.MsQuery
import Verif.Spec.MsServer
import Verif.Proofs.MsQuery
import Verif.Proofs.MsServer
import Verif.Props.MsServer
import Verif.Proofs.ReorderAny
import Verif.Props.ReorderAny
import Verif.Proofs.PgViews
import Verif.Props.PgViews
import Verif.Spec.PgViews
import Verif.Spec.Command
import Verif.Spec.AnyOrder
import Verif.Proofs.AnyOrder
import Verif.Props.AnyOrder
import Verif.Spec.Listed
import Verif.Proofs.Listed
import Verif.Proofs.ListedText
import Verif.Props.Listed
import Verif.Proofs.Moved
import Verif.Proofs.MovedText
import Verif.Props.Moved
import Verif.Spec.FileOrder
import Verif.Proofs.FileOrder
import Verif.Props.FileOrder
import Verif.Model.MyQuery
import Verif.Spec.MyServer
import Verif.Proofs.MyServer
import Verif.Props.MyServer
import Verif.Model.MsAddress
import Verif.Spec.MsUrl
import Verif.Proofs.MsUrl
import Verif.Props.MsUrl
import Verif.Props.BothOrders
import Verif.Spec.LiteViews
import Verif.Proofs.LiteViews
import Verif.Props.LiteViews
import Verif.Spec.ViewPlaces
import Verif.Props.ViewPlaces
import Verif.Proofs.LiteSkip
import Verif.Props.LiteSkip
import Verif.Spec.Removals
import Verif.Proofs.Removals
import Verif.Props.Removals
import Verif.Spec.Needs
import Verif.Proofs.Needs
import Verif.Props.Needs
