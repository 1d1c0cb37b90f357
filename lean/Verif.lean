import Verif.Py
import Verif.Printer
import Verif.Types
import Verif.Conversions
import Verif.Inference
import Verif.Props.PrinterProps
import Verif.Props.TypeProps
import Verif.Props.ConversionProps
import Verif.Props.InferenceProps
import Verif.Lexer
import Verif.Props.LexerProps
import Verif.Tokens
import Verif.TypeParse
import Verif.Props.TypeTextProps
import Verif.Ast
import Verif.Sql
import Verif.Typing
import Verif.Props.NodeProps
import Verif.Props.NameProps
import Verif.Props.QueryProps
import Verif.Props.OneLineProps
import Verif.Walk
import Verif.Schema
import Verif.Props.SchemaProps
import Verif.Spec.Yield
import Verif.Spec.Grammar
import Verif.Lemmas.YieldEqs
import Verif.Lemmas.WfEqs
import Verif.Lemmas.Reads
import Verif.Lemmas.ParseSound
import Verif.Spec.PlainTree
import Verif.Lemmas.PlainEqs
import Verif.Lemmas.Balance
import Verif.Lemmas.Starts
import Verif.Lemmas.Stops
import Verif.Lemmas.CompleteExpr
import Verif.Lemmas.CompleteParts
import Verif.Lemmas.CompleteMore
import Verif.Lemmas.CompleteQuery
import Verif.Lemmas.Complete
import Verif.Props.ParseProps
import Verif.Cst
import Verif.Parse
import Verif.Lemmas.ParseMono
import Verif.Parser
import Verif.Convert
import Verif.Conformance
import Verif.Spec.Tidy
import Verif.Lemmas.CstOf
import Verif.Lemmas.Tx
import Verif.Lemmas.TidyEqs
import Verif.Lemmas.CstEqs
import Verif.Lemmas.PrintParts
import Verif.Lemmas.PrintToks
import Verif.Props.TokenProps
import Verif.Spec.Reread
import Verif.Spec.Fits
import Verif.Lemmas.RereadEqs
import Verif.Lemmas.FitsEqs
import Verif.Lemmas.BodyEqs
import Verif.Lemmas.ConvEqs
import Verif.Lemmas.CstPlain
import Verif.Lemmas.LamBody
import Verif.Lemmas.ConvParts
import Verif.Lemmas.Dropped
import Verif.Lemmas.CstConv
import Verif.Lemmas.Deciding
import Verif.Lemmas.Krfl
import Verif.Props.RoundTripProps
import Verif.Props.RoundTripLimits
import Verif.Spec.Grouping
import Verif.Props.GroupingProps
import Verif.Spec.Literals
import Verif.Props.LiteralProps
import Verif.Spec.Clauses
import Verif.Props.ClauseProps
import Verif.Spec.Calls
import Verif.Props.CallProps
import Verif.Spec.Meaning
import Verif.Spec.SqlMeaning
import Verif.Spec.Rows
import Verif.Spec.IntModel
import Verif.Spec.Negation
import Verif.Lemmas.MeanEqs
import Verif.Lemmas.CMeanEqs
import Verif.Lemmas.RowsEqs
import Verif.Lemmas.DecRows
import Verif.Lemmas.CstMean
import Verif.Lemmas.MapMean
import Verif.Lemmas.RereadMean
import Verif.Props.MeaningProps
import Verif.Spec.Kept
import Verif.Spec.TermModel
import Verif.Lemmas.KeptEqs
import Verif.Lemmas.SpecialCalls
import Verif.Lemmas.ConvMean
import Verif.Props.ReadingProps
import Verif.Spec.Stable
import Verif.Lemmas.StableEqs
import Verif.Lemmas.StableText
import Verif.Lemmas.Spaces
import Verif.Lemmas.DecStable
import Verif.Props.StableProps
import Verif.Object
import Verif.Spec.Identity
import Verif.Spec.Dicts
import Verif.Lemmas.Object
import Verif.Lemmas.ObjEqs
import Verif.Lemmas.ObjInj
import Verif.Lemmas.ObjProper
import Verif.Props.EqualityProps
import Verif.Visit
import Verif.Spec.Children
import Verif.Lemmas.Visit
import Verif.Lemmas.Handed
import Verif.Lemmas.Accepted
import Verif.Lemmas.Traverse
import Verif.Props.VisitProps
import Verif.Spec.Printable
import Verif.Lemmas.Prints
import Verif.Props.PrintableProps
import Verif.Cli
import Verif.Spec.Listing
import Verif.Lemmas.WalkIdem
import Verif.Lemmas.Forgets
import Verif.Props.ResolveProps
import Verif.Props.CliProps
import Verif.Lemmas.Shadow
import Verif.Spec.TablesOf
import Verif.Lemmas.WalkTables
import Verif.Spec.Written
import Verif.Props.WrittenProps
import Verif.Tree
import Verif.Spec.LitsOf
import Verif.Spec.ReadLits
import Verif.Spec.Display
import Verif.Lemmas.TextInj
import Verif.Lemmas.TreeOf
import Verif.Lemmas.TreeOk
import Verif.Lemmas.TreeInj
import Verif.Lemmas.TreeShown
import Verif.Lemmas.LitsMap
import Verif.Lemmas.ConvLits
import Verif.Props.TreeProps
import Verif.Spec.ResultTypes
import Verif.Props.OperatorTypeProps
import Verif.Props.ResultTypeProps
import Verif.Spec.SetChain
import Verif.Props.SetProps
import Verif.Lemmas.Respell
import Verif.Lemmas.RespellTok
import Verif.Lemmas.RespellType
import Verif.Lemmas.RespellParse
import Verif.Lemmas.RespellP
import Verif.Spec.Casing
import Verif.Lemmas.SpelledEqs
import Verif.Lemmas.SpelledMap
import Verif.Lemmas.SpelledNamed
import Verif.Lemmas.ConvRespell
import Verif.Lemmas.Marks
import Verif.Props.CasingProps
import Verif.Props.RelationProps
import Verif.Props.LayoutProps
import Verif.Props.SpellingProps
import Verif.Unicode
import Verif.Spec.UnicodeSpec
import Verif.Lemmas.Unicode
import Verif.Spec.PyEscape
import Verif.Lemmas.PyEscape
import Verif.Props.UnicodeProps
import Verif.Double
import Verif.Spec.DoubleSpec
import Verif.Lemmas.Double
import Verif.Lemmas.DoubleLex
import Verif.Props.DoubleProps
import Verif.ConformanceReader
import Verif.ConformanceNodes
import Verif.ConformanceDocs
import Verif.Lemmas.BalanceWf
import Verif.Lemmas.Scan
import Verif.Lemmas.Extend
import Verif.Lemmas.ExtendMore
import Verif.Lemmas.LexEnd
import Verif.Lemmas.Context
import Verif.Lemmas.CleanWf
import Verif.Lemmas.LexClean
import Verif.Spec.Compose
import Verif.Lemmas.Compose
import Verif.Spec.ComposeParts
import Verif.Spec.ComposeWindow
import Verif.Spec.ComposeQuery
import Verif.Lemmas.ComposeParts
import Verif.Lemmas.ComposeWindow
import Verif.Lemmas.ComposeQuery
import Verif.Props.ComposeProps
import Verif.Props.ComposeQueryProps
import Verif.Props.ComposeWindowProps
import Verif.Props.ReadableProps
import Verif.Heap
import Verif.Spec.Objects
import Verif.Lemmas.Unfold
import Verif.Lemmas.HeapKept
import Verif.Lemmas.HeapTree
import Verif.Lemmas.HeapRefine
import Verif.Lemmas.HeapLocal
import Verif.Lemmas.HeapShared
import Verif.Props.InPlaceProps
import Verif.TypeObjects
import Verif.Spec.TypeObjects
import Verif.Lemmas.TypeObjects
import Verif.Props.TypeObjectProps
import Verif.Lemmas.ComposeMore
import Verif.Props.ComposeMoreProps
import Verif.Lemmas.ReadValid
import Verif.Props.ReadValidProps
import Verif.AntlrTree
import Verif.Spec.AntlrTree
import Verif.Lemmas.AntlrTree
import Verif.Props.AntlrTreeProps
