import Verif.Spl.Ast
/-
The Python classes of the syntax tree: `src/spl/python.rs` and the enumeration `Command` of `src/spl/ast.rs`.
Modelled: the names of the classes in the module `spl_transpiler.ast` and the class of the value inside a
command (`command._0`).  Not modelled: attributes, constructors, equality and hashes, which PyO3 derives.
-/
namespace Verif.Spl

/-- The classes added to the module, spl/python.rs:142-205, by name. -/
def astClasses : List Str :=
  [c!"NullValue", c!"BoolValue", c!"IntValue", c!"StrValue", c!"DoubleValue", c!"TimeSpan", c!"SnapTime", c!"Field", c!"Wildcard", c!"Variable",
    c!"IPv4CIDR", c!"FV", c!"FB", c!"FC", c!"AliasedField", c!"Binary", c!"Unary", c!"Call", c!"FieldIn", c!"Alias",
    c!"SearchCommand", c!"EvalCommand", c!"FieldConversion", c!"ConvertCommand", c!"LookupOutput", c!"LookupCommand", c!"CollectCommand",
    c!"WhereCommand", c!"TableCommand", c!"HeadCommand", c!"FieldsCommand", c!"SortCommand", c!"StatsCommand", c!"RexCommand", c!"RenameCommand",
    c!"RegexCommand", c!"JoinCommand", c!"ReturnCommand", c!"FillNullCommand", c!"EventStatsCommand", c!"StreamStatsCommand", c!"DedupCommand",
    c!"InputLookupCommand", c!"FormatCommand", c!"MvCombineCommand", c!"MvExpandCommand", c!"MakeResultsCommand", c!"AddTotalsCommand",
    c!"BinCommand", c!"MultiSearchCommand", c!"MapCommand", c!"Pipeline", c!"Constant", c!"LeafExpr", c!"Expr", c!"FieldLike",
    c!"FieldOrAlias", c!"Command"]

/-- The class of the value inside a command, ast.rs:617-656. -/
def commandClass : Command → Str
  | .addTotals .. => c!"AddTotalsCommand"
  | .bin .. => c!"BinCommand"
  | .collect .. => c!"CollectCommand"
  | .convert .. => c!"ConvertCommand"
  | .dataModel .. => c!"DataModelCommand"
  | .dedup .. => c!"DedupCommand"
  | .eval .. => c!"EvalCommand"
  | .eventStats .. => c!"EventStatsCommand"
  | .fields .. => c!"FieldsCommand"
  | .fillNull .. => c!"FillNullCommand"
  | .format .. => c!"FormatCommand"
  | .head .. => c!"HeadCommand"
  | .inputLookup .. => c!"InputLookupCommand"
  | .join .. => c!"JoinCommand"
  | .lookup .. => c!"LookupCommand"
  | .makeResults .. => c!"MakeResultsCommand"
  | .map .. => c!"MapCommand"
  | .multiSearch .. => c!"MultiSearchCommand"
  | .mvCombine .. => c!"MvCombineCommand"
  | .mvExpand .. => c!"MvExpandCommand"
  | .rare .. => c!"RareCommand"
  | .regex .. => c!"RegexCommand"
  | .rename .. => c!"RenameCommand"
  | .return_ .. => c!"ReturnCommand"
  | .rex .. => c!"RexCommand"
  | .search .. => c!"SearchCommand"
  | .spath .. => c!"SPathCommand"
  | .sort .. => c!"SortCommand"
  | .stats .. => c!"StatsCommand"
  | .streamStats .. => c!"StreamStatsCommand"
  | .table .. => c!"TableCommand"
  | .tail .. => c!"TailCommand"
  | .top .. => c!"TopCommand"
  | .tstats .. => c!"TStatsCommand"
  | .where_ .. => c!"WhereCommand"

/-- The class of the value inside a constant, ast.rs:550-562. -/
def constantClass : Constant → Str
  | .null => c!"NullValue"
  | .bool .. => c!"BoolValue"
  | .int .. => c!"IntValue"
  | .double .. => c!"DoubleValue"
  | .str .. => c!"StrValue"
  | .snapTime .. => c!"SnapTime"
  | .timeSpan .. => c!"TimeSpan"
  | .field .. => c!"Field"
  | .wildcard .. => c!"Wildcard"
  | .variable .. => c!"Variable"
  | .ipv4cidr .. => c!"IPv4CIDR"

/-- The class of the value inside an expression, ast.rs:566-599; for a leaf the class inside the leaf, and for a constant the class
inside the constant. -/
def exprClass : Expr → Str
  | .const c => constantClass c
  | .fv .. => c!"FV"
  | .fb .. => c!"FB"
  | .fc .. => c!"FC"
  | .aliasedField .. => c!"AliasedField"
  | .binary .. => c!"Binary"
  | .unary .. => c!"Unary"
  | .call .. => c!"Call"
  | .fieldIn .. => c!"FieldIn"
  | .alias .. => c!"Alias"
  | .timeModifier .. => c!"FormattedTimeModifier"
  | .searchModifier .. => c!"SearchModifier"
  | .subSearch .. => c!"Pipeline"

end Verif.Spl
