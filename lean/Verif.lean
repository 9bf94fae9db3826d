import Verif.Basic.Text
import Verif.Nom.Core
import Verif.Spl.Ast
import Verif.Spl.Lexer
import Verif.Spl.Grammar
import Verif.Spl.Macros
import Verif.Spl.Fix
import Verif.Py.Tree
import Verif.Tr.Utils
import Verif.Tr.Funcs
import Verif.Tr.Expr
import Verif.Tr.Regex
import Verif.Tr.Commands
import Verif.Tests.Ext
import Verif.Tests.Repo
import Verif.Tests.Parser
import Verif.Tests.Units
import Verif.Lemmas.Funcs
import Verif.Lemmas.Text
import Verif.Lemmas.Clean
import Verif.Props.Parse
import Verif.Props.Pipeline
import Verif.Props.Runtime
import Verif.Props.Alias
import Verif.Props.Names
import Verif.Props.Columns
import Verif.Spec.Table
import Verif.Props.Frames
import Verif.Props.Search
import Verif.Props.Stats
import Verif.Props.Shapes
import Verif.Spec.Shape
import Verif.Lemmas.Ensures
import Verif.Lemmas.Shape
import Verif.Props.Sub
import Verif.Lemmas.Run
import Verif.Lemmas.Lexers
import Verif.Spl.Eq
import Verif.Props.Segments
import Verif.Props.Keywords
import Verif.Props.Literals
import Verif.Props.Quotes
import Verif.Spec.Values
import Verif.Spec.Written
import Verif.Lemmas.Values
import Verif.Lemmas.Ladder
import Verif.Lemmas.Literal
import Verif.Lemmas.Conditions
import Verif.Props.Precedence
import Verif.Spec.Logical
import Verif.Props.Where
import Verif.Props.Macros
import Verif.Lemmas.Only
import Verif.Spec.Options
import Verif.Props.Options
import Verif.Spec.Python
import Verif.Spec.Tree
import Verif.Spec.Meaning
import Verif.Spec.Fragment
import Verif.Lemmas.Python
import Verif.Lemmas.Numbers
import Verif.Lemmas.Meaning
import Verif.Lemmas.Frag
import Verif.Props.Python
import Verif.Props.Meaning
import Verif.Lemmas.Dotted
import Verif.Props.Dotted
import Verif.Props.Multivalue
import Verif.Props.TimeFormat
import Verif.Props.Arity
import Verif.Spec.Texts
import Verif.Lemmas.From
import Verif.Lemmas.Texts
import Verif.Lemmas.TextsCmd
import Verif.Props.Words
import Verif.Spec.Program
import Verif.Spec.Plain
import Verif.Lemmas.Reads
import Verif.Lemmas.Program
import Verif.Lemmas.ProgText
import Verif.Lemmas.Plain
import Verif.Lemmas.PlainProg
import Verif.Lemmas.PlainCmd
import Verif.Lemmas.PlainRun
import Verif.Props.Program
import Verif.Props.Concat
import Verif.Rt.Library
import Verif.Rt.Commands
import Verif.Spec.Runtime
import Verif.Lemmas.Library
import Verif.Props.Library
import Verif.Lemmas.LibraryCmd
import Verif.Props.LibraryFrames
import Verif.Spec.Query
import Verif.Lemmas.Stage
import Verif.Lemmas.Lists
import Verif.Lemmas.Bodies
import Verif.Lemmas.Pipes
import Verif.Lemmas.Opt
import Verif.Lemmas.Bodies2
import Verif.Lemmas.Bodies3
import Verif.Lemmas.Bodies4
import Verif.Lemmas.Bodies5
import Verif.Lemmas.Bodies6
import Verif.Lemmas.Bodies7
import Verif.Lemmas.Bodies8
import Verif.Lemmas.Bodies9
import Verif.Lemmas.Every
import Verif.Props.Query
import Verif.Props.Forms
import Verif.Spec.Pattern
import Verif.Lemmas.Kept
import Verif.Lemmas.Prim
import Verif.Props.Functions
import Verif.Spec.Convert
import Verif.Lemmas.Pattern
import Verif.Props.Convert
import Verif.Spec.Rows
import Verif.Spec.RowsFragment
import Verif.Lemmas.Within
import Verif.Lemmas.SearchFrag
import Verif.Props.ColumnsRead
import Verif.Props.SearchRows
import Verif.Lemmas.RowOps
import Verif.Lemmas.RowSteps
import Verif.Props.QueryRows
import Verif.Props.LibraryMore
import Verif.Spec.Stats
import Verif.Lemmas.Statistics
import Verif.Props.StatsFunctions
import Verif.Spec.JsonPath
import Verif.Lemmas.ColumnValues
import Verif.Props.NewColumns
import Verif.Props.Made
import Verif.Props.Matching
import Verif.Spec.Multi
import Verif.Props.Multisearch
import Verif.Spec.Types
import Verif.Lemmas.Typed
import Verif.Lemmas.TypedFrames
import Verif.Props.Calls
import Verif.Rt.Udfs
import Verif.Spec.Net
import Verif.Props.Networks
import Verif.Props.AllOrNothing
import Verif.Spec.Time
import Verif.Lemmas.Snap
import Verif.Props.RelativeTime
import Verif.Spec.Built
import Verif.Lemmas.BuiltRows
import Verif.Props.LibraryRows
import Verif.Props.Address6
import Verif.Spec.Join
import Verif.Props.JoinRows
import Verif.Spec.Mv
import Verif.Props.MvFns
import Verif.Props.TimeBounds
import Verif.Props.UnknownCommands
import Verif.Props.IgnoredOptions
import Verif.Spec.Terms
import Verif.Props.BareTerms
import Verif.Spec.ColumnNames
import Verif.Props.ColumnNames
import Verif.Spec.TStats
import Verif.Props.TStatsRows
import Verif.Props.WhereWords
import Verif.Spec.FillNull
import Verif.Props.FillNullRows
import Verif.Props.Tight
import Verif.Spec.PyRun
import Verif.Rt.Magic
import Verif.Lemmas.PyRun
import Verif.Props.Magic
import Verif.Spec.Indexes
import Verif.Props.Indexes
import Verif.Rt.Live
import Verif.Spec.Imports
import Verif.Props.Live
import Verif.Spl.Counted
import Verif.Spl.Calls
import Verif.Lemmas.Effort
import Verif.Props.Effort
import Verif.Spec.Size
import Verif.Lemmas.Size
import Verif.Lemmas.TextSize
import Verif.Lemmas.ProgSize
import Verif.Props.Size
import Verif.Props.LibraryCalls
import Verif.Tr.Work
import Verif.Spec.Work
import Verif.Props.Work
import Verif.Spl.Loaders
import Verif.Props.Loaders
import Verif.Props.Expansion
import Verif.Props.QuotedNames
import Verif.Props.Renaming
import Verif.Props.Compose
import Verif.Props.LibraryMulti
import Verif.Props.LibraryTstats
import Verif.Spl.PyClasses
import Verif.Props.PyClasses
import Verif.Nom.Bytes
import Verif.Props.KeywordBytes
import Verif.Props.DottedValues
