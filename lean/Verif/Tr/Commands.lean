import Verif.Tr.Expr
import Verif.Tr.Regex
/-
Command translation: /repo/src/commands/cmd_*/pyspark.rs, commands/stats_utils.rs, and the
pipeline driver /repo/src/pyspark/transpiler/mod.rs, /repo/src/lib.rs.

A failed translation is `none`.  The name counter of the context (`df_num`, base.rs:17) is
part of the state; it is only advanced by `DataFrame::runtime`, which every
`transform_for_runtime` calls as its last step, so a failed runtime attempt leaves it unchanged.
-/
namespace Verif

/-- What the translation takes from outside the crate. -/
structure Ext where
  /-- `regex_syntax::ast::parse::Parser::parse` -/
  parseRe : Str → Option ReAst
  /-- iteration order of a `HashSet<String>` holding the given (pairwise different) strings -/
  order : List Str → List Str

/-- `PysparkTranspileContext` without the counter, base.rs:16-20 -/
structure Ctx where
  mode : Mode
  ext : Ext

/-- `PipelineTransformState` with the name counter, transpiler/mod.rs:10-14 -/
structure St where
  next : Nat
  df : Option DF

/-- `state.df.clone().unwrap_or_default()` -/
def St.cur (s : St) : DF := s.df.getD DF.default

/-- `state.with_df(df)`, transpiler/mod.rs:21-26 -/
def St.put (s : St) (d : DF) : St := { s with df := some d }

/-- `generate_unique_name`, pyspark/ast.rs:636-639 -/
def dfName (n : Nat) : Str := c!"df_" ++ showNat n

/-- `DataFrame::runtime`, pyspark/ast.rs:646-660, stored in the state -/
def St.putRuntime (s : St) (func : Str) (args : List RE) (kwargs : List (Str × RE)) : St :=
  { next := s.next + 1
    df := some (match s.df with
      | some d => .runtime (dfName s.next) d func args kwargs
      | none => .runtimeRoot (dfName s.next) func args kwargs) }

/-- `PipelineTransformer::transform`, transpiler/mod.rs:29-38 -/
def dispatch (m : Mode) (rt sa : Option St) : Option St :=
  match m with
  | .disallow => sa
  | .allow => orElse rt sa
  | .require => rt

/-! ### commands without sub-searches -/

/-- one summand, cmd_add_totals/pyspark.rs:13-20 -/
def addTotalsCol (name : Str) : PE :=
  PE.mkMethod
    (.fn c!"when" [PE.mkMethod (PE.mkMethod (.named name) c!"cast" [pyStr c!"double"]) c!"isNotNull" [],
      .named name])
    c!"otherwise" [.lit c!"0.0"]

/-- cmd_add_totals/pyspark.rs:6-32 -/
def addTotalsTr (c : AddTotals) (s : St) : Option St :=
  some (s.put (s.cur.mkWithColumn c.fieldName
    ((joinAsBinaries c!"+" (c.fields.map addTotalsCol)).getD (.lit c!"0.0"))))

/-- `format!("{} {}", value, scale)` -/
def spanText (t : TimeSpan) : Str := showInt t.value ++ c!" " ++ t.scale

/-- name of the column written by `bin`, cmd_bin/pyspark.rs:13-16 -/
def FieldOrAlias.outName : FieldOrAlias → Str
  | .field f => f
  | .alias _ n => n

/-- cmd_bin/pyspark.rs:8-30 -/
def binCmdTr (c : Bin) (s : St) : Option St :=
  let name := c.field.outName
  let d := match c.span with
    | some t => s.cur.mkWithColumn name (.fn c!"window" [.named c!"n", pyStr (spanText t)])
    | none => s.cur
  some (s.put (d.mkWithColumn name (.named (name ++ c!"." ++ c!"start"))))

/-- loop of cmd_convert/pyspark.rs:13-22 -/
def convertLoop (timeformat : Str) : List FieldConversion → DF → Option DF
  | [], d => some d
  | c :: cs, d => match convertFn timeformat c with
    | none => none
    | some e => convertLoop timeformat cs (d.mkWithColumn (c.alias.getD c.field) e)

/-- cmd_convert/pyspark.rs:7-24 -/
def convertTr (timeformat : Str) (convs : List FieldConversion) (s : St) : Option St :=
  (convertLoop timeformat convs s.cur).map s.put

/-- cmd_data_model/pyspark.rs:9-32 -/
def dataModelRuntime (c : DataModel) (s : St) : Option St :=
  some (s.putRuntime c!"data_model" []
    [ (c!"data_model_name", .expr (pyOptStr c.dataModelName)),
      (c!"dataset_name", .expr (pyOptStr c.datasetName)),
      (c!"search_mode", .expr (pyOptStr c.searchMode)),
      (c!"strict_fields", .expr (pyBool c.strictFields)),
      (c!"allow_old_summaries", .expr (pyBool c.allowOldSummaries)),
      (c!"summaries_only", .expr (pyBool c.summariesOnly)) ])

/-- the table name of cmd_data_model/pyspark.rs:54-64 -/
def dataModelTable (model node : Option Str) : Option Str :=
  match model, node with
  | some m, none => some m
  | some m, some n => some (m ++ c!"." ++ joinWith c!"." ((splitOnC '.' n).drop 1))
  | none, _ => none

/-- cmd_data_model/pyspark.rs:34-69 -/
def dataModelStandalone (c : DataModel) (s : St) : Option St :=
  if c.searchMode = some c!"search" then
    match s.df, c.dataModelName, c.datasetName with
    | some src, none, none => some (s.put src)
    | none, m, n => (dataModelTable m n).map fun t => s.put (.source t)
    | _, _, _ => none
  else none

/-- `DataModelCommand::transform` -/
def dataModelTr (m : Mode) (c : DataModel) (s : St) : Option St :=
  dispatch m (dataModelRuntime c s) (dataModelStandalone c s)

/-- keyword arguments of cmd_eval/pyspark.rs:24-36; a right-hand side must be a column
(`_eval_expr`, 10-16) -/
def evalKwargs (m : Mode) : List (Str × Expr) → Option (List (Str × RE))
  | [] => some []
  | (n, e) :: rest => match exprTr m e with
    | none => none
    | some c => if c.isCol then
        match evalKwargs m rest with
        | none => none
        | some ks => some ((n, .expr c.unalias) :: ks)
      else none

/-- cmd_eval/pyspark.rs:20-41 -/
def evalRuntime (m : Mode) (fs : List (Str × Expr)) (s : St) : Option St :=
  (evalKwargs m fs).map fun ks => s.putRuntime c!"eval" [] ks

/-- loop of cmd_eval/pyspark.rs:48-50 -/
def evalLoop (m : Mode) : List (Str × Expr) → DF → Option DF
  | [], d => some d
  | (n, e) :: rest, d => match exprTr m e with
    | none => none
    | some c => if c.isCol then evalLoop m rest (d.mkWithColumn n c) else none

/-- cmd_eval/pyspark.rs:43-52 -/
def evalStandalone (m : Mode) (fs : List (Str × Expr)) (s : St) : Option St :=
  (evalLoop m fs s.cur).map s.put

/-- cmd_fields/pyspark.rs:7-22 (`remove_fields` is not read) -/
def fieldsTr (_remove : Bool) (fs : List Str) (s : St) : Option St :=
  some (s.put (.select s.cur (fs.map .named)))

/-- cmd_fill_null/pyspark.rs:6-22 -/
def fillNullRuntime (value : Str) (fields : Option (List Str)) (s : St) : Option St :=
  some (s.putRuntime c!"fill_null" []
    [ (c!"value", .expr (pyStr value)),
      (c!"fields", match fields with
        | some fs => .list (fs.map pyStr)
        | none => .expr (.py c!"None")) ])

/-- cmd_fill_null/pyspark.rs:24-36 (the field list is not read) -/
def fillNullStandalone (value : Str) (_fields : Option (List Str)) (s : St) : Option St :=
  some (s.put (.arbitraryMethod s.cur c!"fillna" [pyStr value]))

/-- the comparison of cmd_head/pyspark.rs:22-43; values are `i64`, see `headTr` -/
def headLimit (e : Expr) (keepLast : Bool) : Option Int :=
  match e with
  | .const (.int n) => some n
  | .binary l sym r =>
    let side : Option (Bool × Expr) := match l, r with
      | .const (.field f), r =>
        if f = c!"count" then some (true, r)
        else match r with
          | .const (.field g) => if g = c!"count" then some (false, l) else none
          | _ => none
      | l, .const (.field g) => if g = c!"count" then some (false, l) else none
      | _, _ => none
    match side with
    | none => none
    | some (wasLeft, lim) =>
      match lim with
      | .const (.int n) =>
        let base : Option Int :=
          if wasLeft && sym = c!"<" then some n
          else if wasLeft && sym = c!"<=" then some (n + 1)
          else if !wasLeft && sym = c!">" then some n
          else if !wasLeft && sym = c!">=" then some (n + 1)
          else none
        base.map fun b => b + if keepLast then 1 else 0
      | _ => none
  | _ => none

/-- cmd_head/pyspark.rs:7-53.  `limit as u64` of a wrapping `i64` sum is the sum modulo `2^64`
(release build; a debug build panics on overflow). -/
def headTr (e : Expr) (keepLast : Bool) (s : St) : Option St :=
  (headLimit e keepLast).map fun n => s.put (.limit s.cur (toU64 n))

/-- join condition, cmd_lookup/pyspark.rs:20-36 -/
def lookupKey : FieldLike → PE
  | .aliased f a => PE.mkBin (.named (c!"main." ++ a)) c!"==" (.named (c!"lookup." ++ f))
  | .field f => PE.mkBin (.named (c!"main." ++ f)) c!"==" (.named (c!"lookup." ++ f))

/-- output column, cmd_lookup/pyspark.rs:46-60 -/
def lookupOut : FieldLike → PE
  | .field f => PE.withAlias (.named (c!"lookup." ++ f)) f
  | .aliased f a => PE.withAlias (.named (c!"lookup." ++ f)) a

/-- the columns of `result_df`, cmd_lookup/pyspark.rs:40-67 -/
def lookupCols : Option LookupOutput → Option (List PE)
  | none => some [.named c!"main.*", .named c!"lookup.*"]
  | some o =>
    if upper o.kv = c!"OUTPUT" then some (.named c!"main.*" :: o.fields.map lookupOut)
    else none

/-- cmd_lookup/pyspark.rs:11-70: the joined frame `result_df` is computed (and may fail) but the
state returned is the one with the aliased input `df`. -/
def lookupTr (c : Lookup) (s : St) : Option St :=
  let df := DF.alias s.cur c!"main"
  let lookupDf := DF.alias (.source c.dataset) c!"lookup"
  let cond := (joinAsBinaries c!"&" (c.fields.map lookupKey)).getD (.lit c!"1")
  let joined := df.mkJoin lookupDf cond c!"left"
  match lookupCols c.output with
  | none => none
  | some cols =>
    let _resultDf := DF.select joined cols
    some (s.put df)

/-- cmd_make_results/pyspark.rs:6-44 -/
def makeResultsTr (c : MakeResults) (s : St) : Option St :=
  let d := (DF.rawSource (c!"spark.range(0, " ++ showInt c.count ++ c!", 1)")).mkWithColumn c!"_time"
    (.fn c!"current_timestamp" [])
  let none_ := PE.lit c!"None"
  let d := if c.annotate then
      ((((((d.mkWithColumn c!"_raw" none_).mkWithColumn c!"host" none_).mkWithColumn c!"source" none_)
        |>.mkWithColumn c!"sourcetype" none_)
        |>.mkWithColumn c!"splunk_server" (.lit (c!"\"" ++ c.server ++ c!"\"")))
        |>.mkWithColumn c!"splunk_server_group" (match c.serverGroup with
          | some g => .lit g
          | none => none_))
    else d
  some (s.put d)

/-- cmd_rare/pyspark.rs:7-44 and cmd_top/pyspark.rs:7-44, which differ in the direction only -/
def topRareTr (direction : Str) (c : TopRare) (s : St) : Option St :=
  if c.useOther then none
  else
    let d := DF.groupBy s.cur ((c.by_.getD c.fields).map .name)
    let d := DF.agg d [PE.withAlias (.fn c!"count" []) c.countField]
    let d := if c.showPercent then
        d.mkWithColumn c.percentField
          (PE.mkBin (.named c!"count") c!"/" (.fn c!"sum" [.named c!"count"]))
      else d
    let d := DF.orderBy d [PE.mkMethod (.named c!"count") direction []]
    let d := if c.n ≠ 0 then DF.limit d c.n else d
    some (s.put d)

/-- Python raw string literal `r"..."` used for patterns, cmd_regex/pyspark.rs:25, cmd_rex/pyspark.rs:30 -/
def pyRaw (s : Str) : PE := .py (c!"r\"" ++ s ++ c!"\"")

/-- cmd_regex/pyspark.rs:8-34 -/
def regexTr (item : Option (Str × Str)) (regex : Str) (s : St) : Option St :=
  let sel : Option (Str × Bool) := match item with
    | none => some (c!"_raw", false)
    | some (f, cmp) =>
      if cmp = c!"=" then some (f, false) else if cmp = c!"!=" then some (f, true) else none
  sel.map fun (f, invert) =>
    let col := PE.fn c!"regexp_like" [.named f, pyRaw regex]
    s.put (s.cur.mkWhere (if invert then PE.mkNot col else col))

/-- cmd_rename/pyspark.rs:6-27 -/
def renameTr (aliases : List (Str × Str)) (s : St) : Option St :=
  some (s.put (aliases.foldl (fun d a => .withColumnRenamed d a.1 a.2) s.cur))

/-- one extracted column, cmd_rex/pyspark.rs:25-34 -/
def rexCol (c : Rex) (d : DF) (g : Nat × Option Str) : DF :=
  d.mkWithColumn (g.2.getD (showNat g.1))
    (.fn c!"regexp_extract" [.named c.field, pyRaw c.regex, pyInt g.1])

/-- cmd_rex/pyspark.rs:7-37 -/
def rexTr (x : Ext) (c : Rex) (s : St) : Option St :=
  if c.mode = some c!"sed" then none
  else if c.maxMatch = 1 then
    (x.parseRe c.regex).map fun a => s.put ((groupsOf a).foldl (rexCol c) s.cur)
  else none

/-- `_is_index`, cmd_search/pyspark.rs:9-14 -/
def isIndex : Expr → Bool
  | .const (.field f) => f = c!"index"
  | _ => false

/-- recombination of the two sides, cmd_search/pyspark.rs:47-57 -/
def recombine (l : Option Expr) (op : Str) (r : Option Expr) : Option (Option Expr) :=
  match l, r with
  | none, none => some none
  | some l, none => if op = c!"AND" || op = c!"OR" then some (some l) else none
  | none, some r => if op = c!"AND" || op = c!"OR" then some (some r) else none
  | some l, some r => some (some (.binary l op r))

/-- `split_conditions`, cmd_search/pyspark.rs:16-63: the remaining condition and the index
names found, in order of insertion. -/
def splitConditions (allAnds : Bool) : Expr → Option (Option Expr × List Str)
  | .binary l sym r =>
    if isIndex l && !isIndex r && sym = c!"=" then
      if allAnds then r.asString.map fun n => (none, [n]) else none
    else if !isIndex l && isIndex r && sym = c!"=" then
      if allAnds then l.asString.map fun n => (none, [n]) else none
    else if isIndex l || isIndex r then none
    else
      let still := allAnds && sym = c!"AND"
      match splitConditions still l with
      | none => none
      | some (l', is) => match splitConditions still r with
        | none => none
        | some (r', js) => (recombine l' sym r').map fun e => (e, is ++ js)
  | e => some (some e, [])

/-- `HashSet::insert` of the collected names -/
def dedupStr : List Str → List Str
  | [] => []
  | x :: xs => x :: (dedupStr xs).filter (· ≠ x)

/-- union of the index tables in iteration order, cmd_search/pyspark.rs:180-192 -/
def unionSources : List Str → Option DF
  | [] => none
  | x :: xs => some (xs.foldl (fun d n => .unionByName d (.source n)) (.source x))

/-- cmd_search/pyspark.rs:174-203 -/
def searchStandalone (c : Ctx) (e : Expr) (s : St) : Option St :=
  match splitConditions true e with
  | none => none
  | some (cond, is) =>
    let d := (unionSources (c.ext.order (dedupStr is))).getD s.cur
    match cond with
    | none => some (s.put d)
    | some cond => (exprTr c.mode cond).map fun p => s.put (d.mkWhere (intoSearch p))

/-- `break_down_ands`, cmd_search/pyspark.rs:65-77 -/
def breakAnds : Expr → List Expr
  | .binary l sym r => if sym = c!"AND" then breakAnds l ++ breakAnds r else [.binary l sym r]
  | e => [e]

/-- the special fields and their keyword, cmd_search/pyspark.rs:79-87,115-143 -/
def searchKeyword (f : Str) : Option Str :=
  if f = c!"index" then some c!"index"
  else if f = c!"source" then some c!"source"
  else if f = c!"sourcetype" then some c!"source_type"
  else if f = c!"host" then some c!"host"
  else if f = c!"hosttag" then some c!"host_tag"
  else if f = c!"eventtype" then some c!"event_type"
  else if f = c!"eventtypetag" then some c!"event_type_tag"
  else if f = c!"savedsplunk" then some c!"saved_splunk"
  else if f = c!"splunk_server" then some c!"splunk_server"
  else none

/-- one conjunct becomes a positional or a keyword argument -/
inductive SArg
  | pos (e : PE)
  | kw (k : Str) (e : PE)

/-- body of the loop of cmd_search/pyspark.rs:102-167 -/
def searchArg (m : Mode) (e : Expr) : Option SArg :=
  match e with
  | .binary (.const (.field f)) sym r =>
    match searchKeyword f with
    | some k =>
      if sym = c!"=" || sym = c!"==" then
        match r with
        | .const (.field v) => some (.kw k (pyStr v))
        | .const (.str v) => some (.kw k (pyStr v))
        | _ => none
      else none
    | none =>
      if sym = c!"=" || sym = c!"==" then (exprTr m r).map (.kw f)
      else (exprTr m e).map .pos
  | e => (exprTr m e).map .pos

/-- the loop of cmd_search/pyspark.rs:102-167: positional and keyword arguments in order -/
def searchArgs (m : Mode) : List Expr → Option (List RE × List (Str × RE))
  | [] => some ([], [])
  | e :: es => match searchArg m e with
    | none => none
    | some a => match searchArgs m es with
      | none => none
      | some (ps, ks) => some (match a with
        | .pos p => (.expr p :: ps, ks)
        | .kw k p => (ps, (k, .expr p) :: ks))

/-- cmd_search/pyspark.rs:90-172 -/
def searchRuntime (m : Mode) (e : Expr) (s : St) : Option St :=
  (searchArgs m (breakAnds e)).map fun (ps, ks) => s.putRuntime c!"search" ps ks

/-- `_ascending_or_descending`, cmd_sort/pyspark.rs:8-26 -/
def sortDir (c : PE) (sign : Option Str) (descending : Bool) : Option PE :=
  let desc : Option Bool := match sign with
    | none => some descending
    | some g => if g = c!"+" then some descending else if g = c!"-" then some (!descending) else none
  desc.map fun d => PE.mkMethod c (if d then c!"desc" else c!"asc") []

/-- `_resolve_expr`, cmd_sort/pyspark.rs:29-43 -/
def sortExpr : Expr → Option PE
  | .const (.field f) => some (.named f)
  | _ => none

/-- cmd_sort/pyspark.rs:52-60 -/
def sortKeys (descending : Bool) : List (Option Str × Expr) → Option (List PE)
  | [] => some []
  | (sign, e) :: rest => match sortExpr e with
    | none => none
    | some c => match sortDir c sign descending with
      | none => none
      | some k => match sortKeys descending rest with
        | none => none
        | some ks => some (k :: ks)

/-- cmd_sort/pyspark.rs:46-69 -/
def sortTr (keys : List (Option Str × Expr)) (count : Int) (descending : Bool) (s : St) : Option St :=
  (sortKeys descending keys).map fun ks =>
    let d := DF.orderBy s.cur ks
    s.put (if count ≠ 0 then .limit d (toU64 count) else d)

/-- cmd_s_path/pyspark.rs:6-23 -/
def spathTr (path input : Str) (output : Option Str) (s : St) : Option St :=
  some (s.put (s.cur.mkWithColumn (output.getD path)
    (.fn c!"get_json_object" [.named input, pyStr (c!"$." ++ path)])))

/-- `transform_by_field`, stats_utils.rs:19-33 -/
def byField (f : SpField) : CN :=
  match f.span with
  | none => .name f.field
  | some t => .col (.fn c!"window" [pyStr f.field, pyStr (spanText t)])

/-- `Aliasable for ast::Expr`, alias.rs:12-26 -/
def Expr.unaliasName : Expr → Expr × Option Str
  | .alias e n => ((Expr.unaliasName e).1, some n)
  | .aliasedField f a => (.const (.field f), some a)
  | e => (e, none)

/-- `transform_stats_expr`, stats_utils.rs:35-47, with `stats_fn`, stat_fns.rs:67-87 -/
def statsExpr (m : Mode) (df : DF) (e : Expr) : Option (DF × PE) :=
  match Expr.unaliasName e with
  | (.call name args, alias) =>
    (statsFn m name (argsTr m args) df).map fun (d, c) => (d, c.maybeAlias alias)
  | _ => none

/-- the loop of cmd_stats/pyspark.rs:98-103, cmd_t_stats/pyspark.rs:134-139 -/
def statsLoop (m : Mode) : List Expr → DF → Option (DF × List PE)
  | [], d => some (d, [])
  | e :: es, d => match statsExpr m d e with
    | none => none
    | some (d', c) => match statsLoop m es d' with
      | none => none
      | some (d'', cs) => some (d'', c :: cs)

/-- `e.with_context(ctx).try_into()` for each argument, without removing aliases -/
def exprsTr (m : Mode) : List Expr → Option (List PE)
  | [] => some []
  | e :: es => match exprTr m e with
    | none => none
    | some c => match exprsTr m es with
      | none => none
      | some cs => some (c :: cs)

/-- `transform_stats_runtime_expr`, stats_utils.rs:49-69 and cmd_stats/pyspark.rs:13-36 -/
def statsRuntimeExpr (m : Mode) (e : Expr) : Option (Str × RE) :=
  match Expr.unaliasName e with
  | (.call name args, alias) =>
    (exprsTr m args).map fun xs => (alias.getD name, .expr (.fn (c!"functions.stats." ++ name) xs))
  | _ => none

/-- the keyword arguments for the functions -/
def statsRuntimeExprs (m : Mode) : List Expr → Option (List (Str × RE))
  | [] => some []
  | e :: es => match statsRuntimeExpr m e with
    | none => none
    | some k => match statsRuntimeExprs m es with
      | none => none
      | some ks => some (k :: ks)

/-- the `by` keyword argument, cmd_stats/pyspark.rs:59-67 -/
def byKwarg : Option (List SpField) → List (Str × RE)
  | none => []
  | some fs => [(c!"by", .list (fs.map fun f => (byField f).toPE))]

/-- cmd_stats/pyspark.rs:39-77 -/
def statsRuntime (m : Mode) (funcs : List Expr) (by_ : Option (List SpField)) (s : St) : Option St :=
  (statsRuntimeExprs m funcs).map fun ks => s.putRuntime c!"stats" [] (byKwarg by_ ++ ks)

/-- cmd_stats/pyspark.rs:79-116 -/
def statsStandalone (m : Mode) (funcs : List Expr) (by_ : Option (List SpField)) (s : St) : Option St :=
  (statsLoop m funcs s.cur).map fun (d, aggs) =>
    s.put (.agg (.groupBy d ((by_.getD []).map byField)) aggs)

/-- cmd_table/pyspark.rs:6-20 -/
def tableTr (fs : List Str) (s : St) : Option St :=
  some (s.put (.select s.cur (fs.map .named)))

/-- cmd_tail/pyspark.rs:5-14 -/
def tailTr (n : Nat) (s : St) : Option St := some (s.put (.tail s.cur n))

/-- the `ensure!`s of cmd_t_stats/pyspark.rs:32-38,92-107 -/
def tstatsOptsOk (o : TStatsOpts) : Bool :=
  !o.prestats && !o.local && !o.append && !o.includeReducedBuckets

/-- the `where` keyword argument, cmd_t_stats/pyspark.rs:59-65 -/
def whereKwarg (m : Mode) : Option Expr → Option (List (Str × RE))
  | none => some []
  | some e => (exprTr m e).map fun c => [(c!"where", .expr c)]

/-- cmd_t_stats/pyspark.rs:12-86 -/
def tstatsRuntime (m : Mode) (o : TStatsOpts) (exprs : List Expr) (datamodel nodename : Option Str)
    (where_ : Option Expr) (byFields : Option (List SpField)) (s : St) : Option St :=
  if tstatsOptsOk o then
    match whereKwarg m where_ with
    | none => none
    | some wk => (statsRuntimeExprs m exprs).map fun ks =>
      s.putRuntime c!"tstats" []
        ([(c!"from_", .dict [(c!"datamodel", pyOptStr datamodel), (c!"nodename", pyOptStr nodename)])]
          ++ (match o.fillnullValue with | some v => [(c!"fill_null_value", .expr (pyStr v))] | none => [])
          ++ wk ++ byKwarg byFields ++ ks)
  else none

/-- filter of cmd_t_stats/pyspark.rs:129-132 -/
def whereStep (m : Mode) : Option Expr → DF → Option DF
  | none, d => some d
  | some e, d => (exprTr m e).map d.mkWhere

/-- cmd_t_stats/pyspark.rs:88-159 -/
def tstatsStandalone (m : Mode) (o : TStatsOpts) (exprs : List Expr) (datamodel nodename : Option Str)
    (where_ : Option Expr) (byFields : Option (List SpField)) (byPrefix : Option Str) (s : St) :
    Option St :=
  if tstatsOptsOk o then
    match dataModelTr m ⟨datamodel, nodename, some c!"search", false, o.allowOldSummaries, o.summariesOnly⟩ s with
    | none => none
    | some s => match whereStep m where_ s.cur with
      | none => none
      | some d => match statsLoop m exprs d with
        | none => none
        | some (d, aggs) => match byFields, byPrefix with
          | some fs, none => some (s.put (.agg (.groupBy d (fs.map byField)) aggs))
          | none, none => some (s.put (.agg (.groupBy d []) aggs))
          | _, _ => none
  else none

/-- cmd_where/pyspark.rs:7-17 -/
def whereTr (m : Mode) (e : Expr) (s : St) : Option St :=
  (exprTr m e).map fun c => s.put (s.cur.mkWhere c)

/-! ### commands with sub-searches -/

/-- Outcome of a translation that can also panic. -/
inductive Outcome (α : Type)
  | ok (a : α)
  | err
  | panic

/-- a panic aborts the conversion just like an error -/
def Outcome.toOption {α} : Outcome α → Option α
  | .ok a => some a
  | _ => none

/-- join key test, cmd_join/pyspark.rs:41-45 -/
def joinKey (f : Str) : PE :=
  PE.mkBin (.named (c!"LEFT." ++ f)) c!"==" (.named (c!"RIGHT." ++ f))

/-- time condition, cmd_join/pyspark.rs:50-58 -/
def joinTime (useTime earlier : Bool) (c : PE) : PE :=
  if useTime then
    PE.mkBin c c!"&" (PE.mkBin (.named c!"LEFT._time") (if earlier then c!">=" else c!"<=")
      (.named c!"RIGHT._time"))
  else c

/-- cmd_join/pyspark.rs:10-63, given the outcome of the sub-search (`None` data frame included).
`join_as_binaries(..).unwrap()` (line 48) panics when there is no field. -/
def joinOutcome (o : JoinOpts) (fields : List Str) (sub : Option St) (s : St) : Outcome St :=
  if o.max = 1 then
    match sub with
    | none => .err
    | some s' => match s'.df with
      | none => .err
      | some right =>
        if o.joinType = c!"inner" || o.joinType = c!"left" || o.joinType = c!"outer" then
          match joinAsBinaries c!"&" (fields.map joinKey) with
          | none => .panic
          | some cond => .ok ⟨s'.next, some ((DF.alias s.cur c!"LEFT").mkJoin (.alias right c!"RIGHT")
              (joinTime o.useTime o.earlier cond) o.joinType)⟩
        else .err
  else .err

/-- `transform` of the standalone `join` -/
def joinTr (o : JoinOpts) (fields : List Str) (sub : Option St) (s : St) : Option St :=
  (joinOutcome o fields sub s).toOption

/-- accumulation of cmd_multi_search/pyspark.rs:19-23 -/
def unionStep : Option DF → DF → DF
  | none, d => d
  | some c, d => .unionByName c d

mutual
/-- `PipelineTransformer for ast::Command`, transpiler/mod.rs:61-103, with the per-command
implementations; the default of an unimplemented half is an error (40-58). -/
def transform (c : Ctx) : Command → St → Option St
  | .addTotals a, s => dispatch c.mode none (addTotalsTr a s)
  | .bin a, s => dispatch c.mode none (binCmdTr a s)
  | .collect _, _ => none
  | .convert t cs, s => dispatch c.mode none (convertTr t cs s)
  | .dataModel a, s => dataModelTr c.mode a s
  | .dedup .., _ => none
  | .eval fs, s => dispatch c.mode (evalRuntime c.mode fs s) (evalStandalone c.mode fs s)
  | .eventStats .., _ => none
  | .fields rm fs, s => dispatch c.mode none (fieldsTr rm fs s)
  | .fillNull v fs, s => dispatch c.mode (fillNullRuntime v fs s) (fillNullStandalone v fs s)
  | .format _, _ => none
  | .head e kl _, s => dispatch c.mode none (headTr e kl s)
  | .inputLookup .., _ => none
  | .join o fs sub, s => dispatch c.mode none (joinTr o fs (runCmds c sub ⟨s.next, none⟩) s)
  | .lookup a, s => dispatch c.mode none (lookupTr a s)
  | .makeResults a, s => dispatch c.mode none (makeResultsTr a s)
  | .map .., _ => none
  | .multiSearch ps, s =>
    dispatch c.mode none (match ps with
      | [] => some s
      | _ => multiTr c ps s.next none)
  | .mvCombine .., _ => none
  | .mvExpand .., _ => none
  | .rare a, s => dispatch c.mode none (topRareTr c!"asc" a s)
  | .regex i r, s => dispatch c.mode none (regexTr i r s)
  | .rename as, s => dispatch c.mode none (renameTr as s)
  | .return_ .., _ => none
  | .rex a, s => dispatch c.mode none (rexTr c.ext a s)
  | .sort ks n d, s => dispatch c.mode none (sortTr ks n d s)
  | .spath p i o, s => dispatch c.mode none (spathTr p i o s)
  | .stats _ fs by_ _, s =>
    dispatch c.mode (statsRuntime c.mode fs by_ s) (statsStandalone c.mode fs by_ s)
  | .streamStats .., _ => none
  | .table fs, s => dispatch c.mode none (tableTr fs s)
  | .tail n, s => dispatch c.mode none (tailTr n s)
  | .top a, s => dispatch c.mode none (topRareTr c!"desc" a s)
  | .tstats o es dm nn w bf bp, s =>
    dispatch c.mode (tstatsRuntime c.mode o es dm nn w bf s) (tstatsStandalone c.mode o es dm nn w bf bp s)
  | .where_ e, s => dispatch c.mode none (whereTr c.mode e s)
  | .search e, s => dispatch c.mode (searchRuntime c.mode e s) (searchStandalone c e s)

/-- the loop of `TransformedPipeline::transform`, transpiler/mod.rs:106-114 -/
def runCmds (c : Ctx) : List Command → St → Option St
  | [], s => some s
  | cmd :: cmds, s => match transform c cmd s with
    | none => none
    | some s' => runCmds c cmds s'

/-- the loop of cmd_multi_search/pyspark.rs:16-27; `acc` is `cur_df`.  A sub-search that yields
no data frame is an error (`try_into`, pyspark/ast.rs:967-976). -/
def multiTr (c : Ctx) : List (List Command) → Nat → Option DF → Option St
  | [], n, acc => some ⟨n, acc⟩
  | p :: ps, n, acc => match runCmds c p ⟨n, none⟩ with
    | none => none
    | some s => match s.df with
      | none => none
      | some d => multiTr c ps s.next (some (unionStep acc d))
end

mutual
/-- Whether the translation of a command panics.  The only panic of the translators is the
`unwrap` of cmd_join/pyspark.rs:48 (`joinOutcome`); a sub-search is translated after the check of
`max` (cmd_join/pyspark.rs:16-27) and the searches of `multisearch` until one fails. -/
def panicsC (c : Ctx) : Command → St → Bool
  | .join o fs sub, s =>
    match c.mode with
    | .require => false
    | _ =>
      if o.max = 1 then
        panicsP c sub ⟨s.next, none⟩ ||
          (match joinOutcome o fs (runCmds c sub ⟨s.next, none⟩) s with
          | .panic => true
          | _ => false)
      else false
  | .multiSearch ps, s =>
    match c.mode with
    | .require => false
    | _ => panicsM c ps s.next
  | _, _ => false

/-- the same for the loop over the commands -/
def panicsP (c : Ctx) : List Command → St → Bool
  | [], _ => false
  | cmd :: cmds, s => panicsC c cmd s ||
    match transform c cmd s with
    | none => false
    | some s' => panicsP c cmds s'

/-- the same for the searches of `multisearch` -/
def panicsM (c : Ctx) : List (List Command) → Nat → Bool
  | [], _ => false
  | p :: ps, n => panicsP c p ⟨n, none⟩ ||
    match runCmds c p ⟨n, none⟩ with
    | none => false
    | some s => match s.df with
      | none => false
      | some _ => panicsM c ps s.next
end

/-- `TransformedPipeline::transform` and `to_spark_query`, transpiler/mod.rs:105-115,
pyspark/ast.rs:956-965: no data frame renders to the empty text. -/
def renderPipeline (c : Ctx) (p : Pipeline) : Option Str :=
  (runCmds c p ⟨1, none⟩).map fun s => match s.df with
    | some d => d.render.text
    | none => []

/-- `render_pyspark`, lib.rs:36-55, with `safe_format_python_code`, format_python.rs:41-57; the
formatter (`black`) is the parameter `fmt`. -/
def renderPyspark (x : Ext) (fmt : Str → Option Str) (p : Pipeline) (allowRuntime formatCode : Bool) :
    Option Str :=
  (renderPipeline ⟨if allowRuntime then .allow else .disallow, x⟩ p).map fun code =>
    if formatCode then
      match fmt code with
      | some t => t
      | none => code
    else code

/-- `convert_spl_to_pyspark`, python/spl_transpiler/utils.py:4-9 -/
def convertSpl (parse : Str → Option Pipeline) (x : Ext) (fmt : Str → Option Str) (code : Str)
    (allowRuntime formatCode : Bool) : Option Str :=
  match parse code with
  | none => none
  | some p => renderPyspark x fmt p allowRuntime formatCode

end Verif
