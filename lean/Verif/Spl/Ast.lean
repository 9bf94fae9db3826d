import Verif.Basic.Text
/-
SPL syntax trees: /repo/src/spl/ast.rs and the command structures of
/repo/src/commands/cmd_*/spl.rs.

`i64` values are integers (the parser only produces values of absolute value
below `2^63`, `Lexer.int`), `u64`/`usize` values are naturals below `2^64`.
-/
namespace Verif

/-- `ast::DoubleValue`, ast.rs:254.  Simplification: the decimal numeral as written
(sign, whole part, fraction) instead of the `f64` nearest to it. -/
structure Dbl where
  neg : Bool
  whole : Str
  frac : Str
deriving DecidableEq, Repr

/-- `ast::TimeSpan`, ast.rs:269 -/
structure TimeSpan where
  value : Int
  scale : Str
deriving DecidableEq, Repr

/-- `ast::SnapTime`, ast.rs:278 -/
structure SnapTime where
  span : Option TimeSpan
  snap : Str
  snapOffset : Option TimeSpan
deriving DecidableEq, Repr

/-- `ast::Constant`, ast.rs:550-562 -/
inductive Constant
  | null
  | bool (b : Bool)
  | int (n : Int)
  | double (d : Dbl)
  | str (s : Str)
  | snapTime (t : SnapTime)
  | timeSpan (t : TimeSpan)
  | field (s : Str)
  | wildcard (s : Str)
  | variable (s : Str)
  | ipv4cidr (s : Str)
deriving DecidableEq, Repr

/-- `ast::TimeModifier`, ast.rs:526 -/
inductive TimeModifier
  | startTime (s : Str)
  | endTime (s : Str)
  | earliest (t : SnapTime)
  | latest (t : SnapTime)
deriving DecidableEq, Repr

/-- `ast::FormattedTimeModifier`, ast.rs:535 -/
structure FmtTimeModifier where
  format : Str
  modifier : TimeModifier
deriving DecidableEq, Repr

/-- `ast::SearchModifier`, ast.rs:575 -/
inductive SearchModifier
  | sourceType (s : Str)
  | host (s : Str)
  | hostTag (s : Str)
  | eventType (s : Str)
  | eventTypeTag (s : Str)
  | savedSplunk (s : Str)
  | source (s : Str)
  | splunkServer (s : Str)
deriving DecidableEq, Repr

/-- `ast::FieldLike`, ast.rs:603.  Only the two variants the parser builds (cmd_lookup/spl.rs:41-53). -/
inductive FieldLike
  | field (f : Str)
  | aliased (f alias : Str)
deriving DecidableEq, Repr

/-- `ast::FieldOrAlias`, ast.rs:612.  Simplification: the aliased expression is a field, which is
the only case the parser builds (cmd_bin/spl.rs:79, cmd_return/spl.rs:57-65). -/
inductive FieldOrAlias
  | field (f : Str)
  | alias (f name : Str)
deriving DecidableEq, Repr

/-- `MaybeSpannedField`, commands/stats_utils.rs:74-79 -/
structure SpField where
  field : Str
  span : Option TimeSpan
deriving DecidableEq, Repr

/-- cmd_add_totals/spl.rs:25-38 -/
structure AddTotals where
  fields : List Str
  row : Bool
  col : Bool
  fieldName : Str
  labelField : Option Str
  label : Str
deriving DecidableEq, Repr

/-- cmd_bin/spl.rs:25-40 -/
structure Bin where
  field : FieldOrAlias
  span : Option TimeSpan
  minSpan : Option TimeSpan
  bins : Option Int
  start : Option Int
  «end» : Option Int
  alignTime : Option Str
deriving DecidableEq, Repr

/-- cmd_collect/spl.rs:33-58 -/
structure Collect where
  index : Str
  fields : List Str
  addTime : Bool
  file : Option Str
  host : Option Str
  marker : Option Str
  outputFormat : Str
  runInPreview : Bool
  spool : Bool
  source : Option Str
  sourceType : Option Str
  testMode : Bool
deriving DecidableEq, Repr

/-- cmd_convert/spl.rs:27-35 -/
structure FieldConversion where
  func : Str
  field : Str
  alias : Option Str
deriving DecidableEq, Repr

/-- cmd_data_model/spl.rs:19-32 -/
structure DataModel where
  dataModelName : Option Str
  datasetName : Option Str
  searchMode : Option Str
  strictFields : Bool
  allowOldSummaries : Bool
  summariesOnly : Bool
deriving DecidableEq, Repr

/-- cmd_format/spl.rs:30-47 -/
structure Format where
  mvSep : Str
  maxResults : Int
  rowPrefix : Str
  colPrefix : Str
  colSep : Str
  colEnd : Str
  rowSep : Str
  rowEnd : Str
deriving DecidableEq, Repr

/-- cmd_join/spl.rs:53-59 -/
structure JoinOpts where
  joinType : Str
  useTime : Bool
  earlier : Bool
  overwrite : Bool
  max : Int
deriving DecidableEq, Repr

/-- cmd_lookup/spl.rs:15-20 -/
structure LookupOutput where
  kv : Str
  fields : List FieldLike
deriving DecidableEq, Repr

/-- cmd_lookup/spl.rs:24-31 -/
structure Lookup where
  dataset : Str
  fields : List FieldLike
  output : Option LookupOutput
deriving DecidableEq, Repr

/-- cmd_make_results/spl.rs:20-29 -/
structure MakeResults where
  count : Int
  annotate : Bool
  server : Str
  serverGroup : Option Str
deriving DecidableEq, Repr

/-- cmd_rare/spl.rs:13-34 and cmd_top/spl.rs:13-34 (identical fields) -/
structure TopRare where
  fields : List Str
  n : Nat
  by_ : Option (List Str)
  countField : Str
  otherStr : Str
  percentField : Str
  showCount : Bool
  showPercent : Bool
  useOther : Bool
deriving DecidableEq, Repr

/-- cmd_rex/spl.rs:24-35 -/
structure Rex where
  field : Str
  maxMatch : Int
  offsetField : Option Str
  mode : Option Str
  regex : Str
deriving DecidableEq, Repr

/-- cmd_stats/spl.rs:48-52 -/
structure StatsOpts where
  partitions : Nat
  allNum : Bool
  delim : Str
deriving DecidableEq, Repr

/-- cmd_t_stats/spl.rs:100-109 -/
structure TStatsOpts where
  prestats : Bool
  «local» : Bool
  append : Bool
  summariesOnly : Bool
  includeReducedBuckets : Bool
  allowOldSummaries : Bool
  chunkSize : Int
  fillnullValue : Option Str
deriving DecidableEq, Repr

mutual
/-- `ast::Expr`, with the leaf layer (`ast::LeafExpr`) inlined; ast.rs:451-515,566-600 -/
inductive Expr
  | const (c : Constant)
  | fv (field value : Str)
  | fb (field : Str) (value : Bool)
  | fc (field : Str) (value : Constant)
  | aliasedField (field alias : Str)
  | binary (left : Expr) (symbol : Str) (right : Expr)
  | unary (symbol : Str) (right : Expr)
  | call (name : Str) (args : List Expr)
  | fieldIn (field : Str) (exprs : List Expr)
  | alias (expr : Expr) (name : Str)
  | timeModifier (m : FmtTimeModifier)
  | searchModifier (m : SearchModifier)
  | subSearch (commands : List Command)

/-- `ast::Command`, ast.rs:620; a pipeline (`ast::Pipeline`) is the list of its commands. -/
inductive Command
  | addTotals (c : AddTotals)
  | bin (c : Bin)
  | collect (c : Collect)
  | convert (timeformat : Str) (convs : List FieldConversion)
  | dataModel (c : DataModel)
  /-- `sortBy` are the keys of the nested sort command (always unlimited and not
  reversed: `SortCommand::new_simple`, cmd_sort/spl.rs:37-44) -/
  | dedup (numResults : Int) (fields : List Str) (keepEvents keepEmpty consecutive : Bool)
      (sortBy : List (Option Str × Str))
  | eval (fields : List (Str × Expr))
  | eventStats (allNum : Bool) (funcs : List Expr) (by_ : List Str)
  | fields (remove : Bool) (fields : List Str)
  | fillNull (value : Str) (fields : Option (List Str))
  | format (c : Format)
  | head (evalExpr : Expr) (keepLast nullOption : Bool)
  | inputLookup (append strict : Bool) (start max : Int) (table : Str) (whereExpr : Option Expr)
  | join (o : JoinOpts) (fields : List Str) (sub : List Command)
  | lookup (c : Lookup)
  | makeResults (c : MakeResults)
  | map (search : List Command) (maxSearches : Int)
  | multiSearch (pipelines : List (List Command))
  | mvCombine (delim : Option Str) (field : Str)
  | mvExpand (field : Str) (limit : Option Int)
  | rare (c : TopRare)
  | regex (item : Option (Str × Str)) (regex : Str)
  /-- `(source, new name)` pairs; `Alias`es of fields (cmd_rename/spl.rs:41-44) -/
  | rename (aliases : List (Str × Str))
  | return_ (count : Int) (fields : List FieldOrAlias)
  | rex (c : Rex)
  | sort (keys : List (Option Str × Expr)) (count : Int) (descending : Bool)
  | spath (path input : Str) (output : Option Str)
  | stats (o : StatsOpts) (funcs : List Expr) (by_ : Option (List SpField)) (dedupSplitVals : Bool)
  | streamStats (funcs : List Expr) (by_ : List SpField) (current : Bool) (window : Int)
  | table (fields : List Str)
  | tail (n : Nat)
  | top (c : TopRare)
  | tstats (o : TStatsOpts) (exprs : List Expr) (datamodel nodename : Option Str)
      (whereCondition : Option Expr) (byFields : Option (List SpField)) (byPrefix : Option Str)
  | where_ (e : Expr)
  | search (e : Expr)
end

instance : Inhabited Expr := ⟨.const .null⟩
instance : Inhabited Command := ⟨.tail 0⟩

/-- `ast::Pipeline`, ast.rs:543 -/
abbrev Pipeline := List Command

/-- Rust `as u64` / `as usize` on an `i64`. -/
def toU64 (n : Int) : Nat := (n % (2 ^ 64 : Int)).toNat

/-- `ParsedCommandOptions::from(CommandOptions)` followed by `HashMap::get`, ast.rs:337-351:
the options are collected into a hash map in the order written, so the last binding of a
key is the one found. -/
def optGet (k : Str) : List (Str × Constant) → Option Constant
  | [] => none
  | (k', v) :: rest => match optGet k rest with
    | some w => some w
    | none => if k' = k then some v else none

/-- `get_int_option`, ast.rs:393-399; the outer `none` is the error. -/
def getIntOption (os : List (Str × Constant)) (k : Str) : Option (Option Int) :=
  match optGet k os with
  | some (.int n) => some (some n)
  | some _ => none
  | none => some none

/-- `get_int`, ast.rs:401-403 -/
def getInt (os : List (Str × Constant)) (k : Str) (d : Int) : Option Int :=
  (getIntOption os k).map (·.getD d)

/-- `get_string_option`, ast.rs:405-412 -/
def getStringOption (os : List (Str × Constant)) (k : Str) : Option (Option Str) :=
  match optGet k os with
  | some (.field s) => some (some s)
  | some (.str s) => some (some s)
  | some _ => none
  | none => some none

/-- `get_string`, ast.rs:414-417 -/
def getString (os : List (Str × Constant)) (k : Str) (d : Str) : Option Str :=
  (getStringOption os k).map (·.getD d)

/-- `get_span_option`, ast.rs:419-425 -/
def getSpanOption (os : List (Str × Constant)) (k : Str) : Option (Option TimeSpan) :=
  match optGet k os with
  | some (.timeSpan t) => some (some t)
  | some _ => none
  | none => some none

/-- `get_boolean`, ast.rs:427-437 -/
def getBoolean (os : List (Str × Constant)) (k : Str) (d : Bool) : Option Bool :=
  match optGet k os with
  | some (.bool b) => some b
  | some (.field v) =>
    if v = c!"true" then some true
    else if v = c!"t" then some true
    else if v = c!"false" then some false
    else if v = c!"f" then some false
    else none
  | some _ => none
  | none => some d

end Verif
