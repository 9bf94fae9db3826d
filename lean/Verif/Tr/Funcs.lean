import Verif.Tr.Utils
/-
Eval, stats and convert functions: /repo/src/functions/{mod,shared,eval_fns,stat_fns,convert_fns}.rs.

The `match name { "f" => function_transform!(...), ... }` of the source becomes a table from
names to function specifications; `function_transform!` (functions/mod.rs:86-137) becomes
`FnSpec.apply`.
-/
namespace Verif

/-- `RuntimeSelection`, pyspark/base.rs:8-14 -/
inductive Mode
  | disallow | allow | require
deriving DecidableEq, Repr

/-- A call argument (`ContextualizedExpr<ast::Expr>`) together with the outcome of converting
it to a column and removing its alias (`map_arg::<Expr>`, functions/mod.rs:69-76). -/
structure Arg where
  src : Expr
  col : Option PE

/-- `TryFrom<ContextualizedExpr> for i64`, functions/mod.rs:11-22 -/
def Expr.asInt : Expr → Option Int
  | .const (.int n) => some n
  | _ => none

/-- `TryFrom<ContextualizedExpr> for String`, functions/mod.rs:36-67 -/
def Expr.asString : Expr → Option Str
  | .const (.str s) => some s
  | .const (.field s) => some s
  | .const (.wildcard s) => some s
  | .const (.variable s) => some s
  | .const (.ipv4cidr s) => some s
  | _ => none

/-- declared type of a `function_transform!` parameter (`name`, `name: i64`, `name: String`) -/
inductive PK
  | expr | int | str
deriving DecidableEq, Repr

/-- a bound parameter -/
inductive ArgVal
  | e (x : PE)
  | i (n : Int)
  | s (t : Str)

/-- the three forms `[args]`, `[args -> mapped]` and `[args ...]` of `function_transform!` -/
inductive Rest
  | exact | mapped | ignored
deriving DecidableEq, Repr

/-- One arm of the function tables. -/
structure FnSpec where
  alias : Str
  params : List PK
  rest : Rest
  /-- bound parameters, raw arguments, mapped remaining arguments -/
  body : List ArgVal → List Arg → List PE → Option PE

/-- `map_arg` at a declared type, functions/mod.rs:69-76 -/
def bindParam : PK → Arg → Option ArgVal
  | .expr, a => a.col.map .e
  | .int, a => a.src.asInt.map .i
  | .str, a => a.src.asString.map .s

/-- `_function_args!`, functions/mod.rs:86-110: bind the parameters in order, failing when an
argument is missing. -/
def bindParams : List PK → List Arg → Option (List ArgVal)
  | [], _ => some []
  | _ :: _, [] => none
  | p :: ps, a :: as =>
    match bindParam p a with
    | none => none
    | some v => match bindParams ps as with
      | none => none
      | some vs => some (v :: vs)

/-- `map_args`, functions/mod.rs:78-84 -/
def mapArgs : List Arg → Option (List PE)
  | [] => some []
  | a :: as => match a.col with
    | none => none
    | some x => match mapArgs as with
      | none => none
      | some xs => some (x :: xs)

/-- `function_transform!`, functions/mod.rs:112-137 -/
def FnSpec.apply (f : FnSpec) (args : List Arg) : Option PE :=
  match bindParams f.params args with
  | none => none
  | some vs =>
    let out := match f.rest with
      | .exact => if f.params.length = args.length then f.body vs args [] else none
      | .ignored => f.body vs args []
      | .mapped => match mapArgs (args.drop f.params.length) with
        | none => none
        | some ms => f.body vs args ms
    out.map fun o => o.withAlias f.alias

/-- `column_like!(f([x]))` with one column parameter -/
def FnSpec.one (alias : Str) (f : PE → PE) : FnSpec :=
  ⟨alias, [.expr], .exact, fun | [.e x], _, _ => some (f x) | _, _, _ => none⟩

/-- two column parameters -/
def FnSpec.two (alias : Str) (f : PE → PE → PE) : FnSpec :=
  ⟨alias, [.expr, .expr], .exact, fun | [.e x, .e y], _, _ => some (f x y) | _, _, _ => none⟩

/-- no parameter -/
def FnSpec.nullary (alias : Str) (e : PE) : FnSpec :=
  ⟨alias, [], .exact, fun _ _ _ => some e⟩

/-- `fn1 a f`: `f(x)`, `a` being the alias -/
def fn1 (alias f : Str) : FnSpec := .one alias fun x => .fn f [x]

/-- `fn2 a f`: `f(x, y)` -/
def fn2 (alias f : Str) : FnSpec := .two alias fun x y => .fn f [x, y]

/-- `memk`, functions/shared.rs:14-28 -/
def memkFn (c : PE) : PE :=
  let re := pyStr c!"(?i)^(\\d*\\.?\\d+)([kmg])$"
  let num := PE.mkMethod (.fn c!"regexp_extract" [c, re, pyInt 1]) c!"cast" [pyStr c!"double"]
  let unit := PE.fn c!"upper" [.fn c!"regexp_extract" [c, re, pyInt 2]]
  let isK := PE.mkBin unit c!"==" (.lit c!"\"K\"")
  let isM := PE.mkBin unit c!"==" (.lit c!"\"M\"")
  let isG := PE.mkBin unit c!"==" (.lit c!"\"G\"")
  let s := PE.fn c!"when" [isK, .lit c!"1.0"]
  let s := PE.mkMethod s c!"when" [isM, .lit c!"1024.0"]
  let s := PE.mkMethod s c!"when" [isG, .lit c!"1048576.0"]
  let s := PE.mkMethod s c!"otherwise" [.lit c!"1.0"]
  PE.mkBin num c!"*" s

/-- `rmcomma`, functions/shared.rs:31-33 -/
def rmcommaFn (c : PE) : PE :=
  PE.mkMethod (.fn c!"regexp_replace" [c, pyStr c!",", pyStr []]) c!"cast" [pyStr c!"double"]

/-- `rmunit`, functions/shared.rs:36-39 -/
def rmunitFn (c : PE) : PE :=
  PE.mkMethod (.fn c!"regexp_extract" [c, pyStr c!"(?i)^(\\d*\\.?\\d+)(\\w*)$", pyInt 1]) c!"cast"
    [pyStr c!"double"]

/-- `ctime`, functions/shared.rs:5-11 -/
def ctimeFn (c : PE) (timeformat : Str) : Option PE :=
  (convertTimeFormat timeformat).map fun t => .fn c!"date_format" [c, pyStr t]

/-- `offset_time`, eval_fns.rs:152-156 -/
def offsetTime (t : PE) (o : TimeSpan) : PE :=
  PE.mkBin t c!"+" (.fn c!"expr" [pyStr (c!"INTERVAL " ++ showInt o.value ++ c!" " ++ upper o.scale)])

/-- the table of `round_time`, eval_fns.rs:158-170 -/
def roundUnit (s : Str) : Option Str :=
  if s = c!"years" then some c!"year"
  else if s = c!"months" then some c!"month"
  else if s = c!"weeks" then some c!"week"
  else if s = c!"days" then some c!"day"
  else if s = c!"hours" then some c!"hour"
  else if s = c!"minutes" then some c!"minute"
  else if s = c!"seconds" then some c!"second"
  else if s = c!"milliseconds" then some c!"millisecond"
  else if s = c!"microseconds" then some c!"microsecond"
  else none

/-- `round_time`, eval_fns.rs:158-172 -/
def roundTime (t : PE) (scale : Str) : Option PE :=
  (roundUnit scale).map fun u => .fn c!"date_trunc" [pyStr u, t]

/-- body of `relative_time`, eval_fns.rs:351-368 -/
def relativeTimeBody (time : PE) (s : SnapTime) : Option PE :=
  let t := PE.fn c!"to_timestamp" [time]
  let t := match s.span with | none => t | some o => offsetTime t o
  match roundTime t s.snap with
  | none => none
  | some t => some (match s.snapOffset with | none => t | some o => offsetTime t o)

/-- the loop of `case`, eval_fns.rs:247-260: `when(c1, v1).when(c2, v2)...` -/
def caseFrom (neg : Bool) : PE → List PE → PE
  | acc, c :: v :: rest =>
    caseFrom neg (PE.mkMethod acc c!"when" [if neg then PE.mkNot c else c, v]) rest
  | acc, _ => acc

/-- bodies of `case` and `validate`, eval_fns.rs:247-260,300-313 -/
def caseBody (neg : Bool) (ms : List PE) : Option PE :=
  if ms.length % 2 = 0 then
    match ms with
    | c :: v :: rest => some (caseFrom neg (.fn c!"when" [if neg then PE.mkNot c else c, v]) rest)
    | _ => none
  else none

/-- the accumulation loops of `avg`, `max`, `min`, eval_fns.rs:568-605 -/
def foldArgs (f : PE → PE → PE) : List PE → Option PE
  | [] => none
  | x :: xs => some (xs.foldl f x)

/-- body of `mvindex`, eval_fns.rs:515-523 -/
def mvindexBody (x : PE) (start : Int) (args : List Arg) : Option PE :=
  match args[2]? with
  | none => some (.fn c!"get" [x, pyInt start])
  | some e => match e.src.asInt with
    | none => none
    | some e => some (.fn c!"slice" [x, pyInt (wrapI64 (start + 1)), pyInt (wrapI64 (e - start + 1))])

/-- body of `mvzip`, eval_fns.rs:541-556 -/
def mvzipBody (l r : PE) (args : List Arg) : Option PE :=
  match (match args[2]? with | none => some c!"," | some d => d.src.asString) with
  | none => none
  | some d => some (.fn c!"zip_with" [l, r,
      .py (c!"lambda left_, right_: F.concat_ws(r\"" ++ d ++ c!"\", left_, right_)")])

/-- body of `relative_time` with the second argument read from the raw argument list -/
def relativeTimeArgs (t : PE) (args : List Arg) : Option PE :=
  match (args[1]?.map Arg.src : Option Expr) with
  | some (.const (.snapTime s)) => relativeTimeBody t s
  | _ => none

/-- The arms of `eval_fn_bare` that have a translation, eval_fns.rs:216-692. -/
def evalTable : List (Str × FnSpec) :=
  [ -- convert functions, 219-221 (the alias of all three is `memk` in the source)
    (c!"memk", .one c!"memk" memkFn),
    (c!"rmunit", .one c!"memk" rmunitFn),
    (c!"rmcomma", .one c!"memk" rmcommaFn),
    -- bitwise, 225-243 (aliases as in the source)
    (c!"bit_and", .two c!"bit_and" fun a b => PE.mkMethod a c!"bitwiseAND" [b]),
    (c!"bit_or", .two c!"bit_or" fun a b => PE.mkMethod a c!"bitwiseOR" [b]),
    (c!"bit_not", fn1 c!"bit_not" c!"bitwise_not"),
    (c!"bit_xor", .two c!"bit_or" fun a b => PE.mkMethod a c!"bitwiseXOR" [b]),
    (c!"bit_shift_left", ⟨c!"bit_not", [.expr, .int], .exact,
      fun | [.e x, .i n], _, _ => some (.fn c!"shiftleft" [x, pyInt n]) | _, _, _ => none⟩),
    (c!"bit_shift_right", ⟨c!"bit_not", [.expr, .int], .exact,
      fun | [.e x, .i n], _, _ => some (.fn c!"shiftright" [x, pyInt n]) | _, _, _ => none⟩),
    -- comparison and conditional, 247-313
    (c!"case", ⟨c!"case", [], .mapped, fun _ _ ms => caseBody false ms⟩),
    (c!"cidrmatch", ⟨c!"cidrmatch", [.str, .str], .exact,
      fun | [.s cidr, .s col], _, _ =>
            some (.fn c!"expr" [pyStr (c!"cidr_match('" ++ cidr ++ c!"', " ++ col ++ c!")")])
          | _, _, _ => none⟩),
    (c!"coalesce", ⟨c!"coalesce", [], .mapped, fun _ _ ms => some (.fn c!"coalesce" ms)⟩),
    (c!"false", .nullary c!"false" (.lit c!"False")),
    (c!"if", ⟨c!"if", [.expr, .expr, .expr], .exact,
      fun | [.e c, .e t, .e e], _, _ =>
            some (PE.mkMethod (.fn c!"when" [c, t]) c!"otherwise" [e])
          | _, _, _ => none⟩),
    (c!"in", .two c!"in" fun x vs => PE.mkMethod x c!"isin" [vs]),
    (c!"like", fn2 c!"like" c!"like"),
    (c!"match", fn2 c!"match" c!"regexp_like"),
    (c!"null", .nullary c!"null" (.lit c!"None")),
    (c!"nullif", fn2 c!"nullif" c!"nullif"),
    (c!"true", .nullary c!"true" (.lit c!"True")),
    (c!"validate", ⟨c!"validate", [], .mapped, fun _ _ ms => caseBody true ms⟩),
    -- conversion, 323-331
    (c!"tonumber", ⟨c!"tonumber", [.expr], .mapped,
      fun | [.e x], _, [] => some (PE.mkMethod x c!"cast" [pyStr c!"double"]) | _, _, _ => none⟩),
    (c!"tostring", ⟨c!"tostring", [.expr], .mapped,
      fun | [.e x], _, [] => some (PE.mkMethod x c!"cast" [pyStr c!"string"]) | _, _, _ => none⟩),
    -- cryptographic, 335-345
    (c!"md5", fn1 c!"md5" c!"md5"),
    (c!"sha1", fn1 c!"sha1" c!"sha1"),
    (c!"sha256", .one c!"sha256" fun x => .fn c!"sha2" [x, pyInt 256]),
    (c!"sha512", .one c!"sha512" fun x => .fn c!"sha2" [x, pyInt 512]),
    -- date and time, 349-380
    (c!"now", .nullary c!"now" (.fn c!"current_timestamp" [])),
    (c!"relative_time", ⟨c!"now", [.expr], .ignored,
      fun | [.e t], args, _ => relativeTimeArgs t args | _, _, _ => none⟩),
    (c!"strftime", ⟨c!"strftime", [.expr, .str], .exact,
      fun | [.e d, .s f], _, _ => (convertTimeFormat f).map fun t => .fn c!"date_format" [d, pyStr t]
          | _, _, _ => none⟩),
    (c!"strptime", ⟨c!"strptime", [.expr, .str], .exact,
      fun | [.e d, .s f], _, _ => (convertTimeFormat f).map fun t => .fn c!"to_timestamp" [d, pyStr t]
          | _, _, _ => none⟩),
    (c!"time", .nullary c!"time" (.fn c!"current_timestamp" [])),
    -- informational, 392-394
    (c!"isnotnull", fn1 c!"isnotnull" c!"isnotnull"),
    (c!"isnull", fn1 c!"isnull" c!"isnull"),
    -- JSON, 438-452
    (c!"json_keys", fn1 c!"json_keys" c!"json_object_keys"),
    (c!"json_valid", .one c!"json_valid" fun x =>
      PE.mkMethod (.fn c!"get_json_object" [x, pyStr c!"$"]) c!"isNotNull" []),
    -- mathematical, 456-487
    (c!"abs", fn1 c!"abs" c!"abs"),
    (c!"ceiling", fn1 c!"ceiling" c!"ceil"),
    (c!"exact", .one c!"exact" fun x => PE.mkMethod x c!"cast" [pyStr c!"double"]),
    (c!"exp", fn1 c!"exp" c!"exp"),
    (c!"floor", fn1 c!"floor" c!"floor"),
    (c!"ln", fn1 c!"ln" c!"log"),
    (c!"log", fn2 c!"log" c!"log"),
    (c!"pi", .nullary c!"pi" (.lit c!"3.141592653589793")),
    (c!"pow", fn2 c!"pow" c!"pow"),
    (c!"round", ⟨c!"round", [.expr, .int], .exact,
      fun | [.e x, .i p], _, _ => some (.fn c!"round" [x, pyInt p]) | _, _, _ => none⟩),
    (c!"sqrt", fn1 c!"sqrt" c!"sqrt"),
    (c!"sum", fn1 c!"sum" c!"sum"),
    -- multivalue, 495-564
    (c!"mvappend", ⟨c!"mvappend", [], .mapped, fun _ _ ms => some (.fn c!"concat" ms)⟩),
    (c!"mvcount", fn1 c!"mvcount" c!"size"),
    (c!"mvindex", ⟨c!"mvindex", [.expr, .int], .ignored,
      fun | [.e x, .i s], args, _ => mvindexBody x s args | _, _, _ => none⟩),
    (c!"mvzip", ⟨c!"mvzip", [.expr, .expr], .mapped,
      fun | [.e l, .e r], args, _ => mvzipBody l r args | _, _, _ => none⟩),
    (c!"split", ⟨c!"split", [.expr, .str], .exact,
      fun | [.e x, .s d], _, _ => some (.fn c!"split" [x, pyStr d]) | _, _, _ => none⟩),
    -- statistical, 568-608
    (c!"avg", ⟨c!"avg", [], .mapped, fun _ _ ms =>
      (foldArgs (fun v c => PE.mkBin v c!"+" c) ms).map fun o =>
        PE.mkBin o c!"/" (pyInt ms.length)⟩),
    (c!"max", ⟨c!"max", [], .mapped, fun _ _ ms => foldArgs (fun v c => .fn c!"greatest" [v, c]) ms⟩),
    (c!"min", ⟨c!"min", [], .mapped, fun _ _ ms => foldArgs (fun v c => .fn c!"least" [v, c]) ms⟩),
    (c!"random", .nullary c!"random" (.fn c!"rand" [])),
    -- text, 612-642
    (c!"len", fn1 c!"len" c!"length"),
    (c!"lower", fn1 c!"lower" c!"lower"),
    (c!"ltrim", fn2 c!"ltrim" c!"ltrim"),
    (c!"replace", ⟨c!"replace", [.expr, .str, .str], .exact,
      fun | [.e i, .s re, .s rep], _, _ => some (.fn c!"regexp_replace" [i, pyStr re, pyStr rep])
          | _, _, _ => none⟩),
    (c!"rtrim", fn2 c!"rtrim" c!"rtrim"),
    (c!"substr", ⟨c!"substr", [.expr, .int, .int], .exact,
      fun | [.e x, .i a, .i b], _, _ => some (.fn c!"substring" [x, pyInt a, pyInt b])
          | _, _, _ => none⟩),
    (c!"trim", fn2 c!"trim" c!"trim"),
    (c!"upper", fn1 c!"upper" c!"upper"),
    (c!"urldecode", fn1 c!"urldecode" c!"url_decode"),
    -- trigonometry, 646-672
    (c!"acos", fn1 c!"acos" c!"acos"), (c!"acosh", fn1 c!"acosh" c!"acosh"),
    (c!"asin", fn1 c!"asin" c!"asin"), (c!"asinh", fn1 c!"asinh" c!"asinh"),
    (c!"atan", fn1 c!"atan" c!"atan"), (c!"atan2", fn2 c!"atan2" c!"atan2"),
    (c!"atanh", fn1 c!"atanh" c!"atanh"), (c!"cos", fn1 c!"cos" c!"cos"),
    (c!"cosh", fn1 c!"cosh" c!"cosh"), (c!"hypot", fn2 c!"hypot" c!"hypot"),
    (c!"sin", fn1 c!"sin" c!"sin"), (c!"sinh", fn1 c!"sinh" c!"sinh"),
    (c!"tan", fn1 c!"tan" c!"tan"), (c!"tanh", fn1 c!"tanh" c!"tanh") ]

/-- The arms of `eval_fn_bare` that only `bail!`. -/
def evalUnsupported : List Str :=
  [ c!"lookup", c!"searchmatch", c!"ipmask", c!"printf", c!"isbool", c!"isint", c!"isnum", c!"isstr",
    c!"typeof", c!"json_object", c!"json_append", c!"json_array", c!"json_array_to_mv", c!"json_extend",
    c!"json_extract", c!"json_extract_exact", c!"json_set", c!"json_set_exact", c!"sigfig",
    c!"commands", c!"mvdedup", c!"mvfilter", c!"mvfind", c!"mvjoin", c!"mvmap", c!"mvrange", c!"mvsort",
    c!"mv_to_json_array", c!"spath" ]

/-- association-list lookup (first match, as `match` tries its arms in order) -/
def lookupFn (name : Str) : List (Str × FnSpec) → Option FnSpec
  | [] => none
  | (n, f) :: rest => if n = name then some f else lookupFn name rest

/-- the fallback arm: the call is passed through with its name and arguments,
eval_fns.rs:675-691, stat_fns.rs:259-276 -/
def passThrough (name : Str) (args : List Arg) : Option PE :=
  (mapArgs args).map fun xs => .aliased (.fn name xs) name

/-- `eval_fn_bare`, eval_fns.rs:216-693 -/
def evalFnBare (name : Str) (args : List Arg) : Option PE :=
  match lookupFn name evalTable with
  | some f => f.apply args
  | none => if name ∈ evalUnsupported then none else passThrough name args

/-- Python-side names of the functions whose name is a Python keyword or builtin, eval_fns.rs:200-208 -/
def runtimeEvalName (name : Str) : Str :=
  if name = c!"if" then c!"if_"
  else if name = c!"in" then c!"in_"
  else if name = c!"len" then c!"len_"
  else if name = c!"sum" then c!"sum_"
  else if name = c!"max" then c!"max_"
  else if name = c!"min" then c!"min_"
  else name

/-- the `cidrmatch` arm of `eval_fn_runtime`, eval_fns.rs:189-194 -/
def cidrmatchRuntime : FnSpec :=
  ⟨c!"cidrmatch", [.str, .expr], .exact,
    fun | [.s cidr, .e col], _, _ => some (.fn c!"functions.eval.cidrmatch" [pyStr cidr, col])
        | _, _, _ => none⟩

/-- `eval_fn_runtime`, eval_fns.rs:187-214 -/
def evalFnRuntime (name : Str) (args : List Arg) : Option PE :=
  if name = c!"cidrmatch" then cidrmatchRuntime.apply args
  else (mapArgs args).map fun xs => .fn (c!"functions.eval." ++ runtimeEvalName name) xs

/-- `Result::or_else` -/
def orElse {α} (a b : Option α) : Option α :=
  match a with
  | some x => some x
  | none => b

/-- `eval_fn`, eval_fns.rs:174-185 -/
def evalFn (m : Mode) (name : Str) (args : List Arg) : Option PE :=
  match m with
  | .disallow => evalFnBare name args
  | .require => evalFnRuntime name args
  | .allow => orElse (evalFnRuntime name args) (evalFnBare name args)

/-! ### stats functions -/

/-- percentile arms: the number is what remains of the name after removing the prefix,
stat_fns.rs:138-143,157-162,176-181 -/
def percentileSpec (alias func name : Str) : FnSpec :=
  ⟨alias, [.expr], .exact,
    fun | [.e x], _, _ => (parseU32 (replaceAll alias [] name)).map fun p =>
            .fn func [x, .py (percentText p)]
        | _, _, _ => none⟩

/-- `max(_time)`, `min(_time)` -/
def timeCol : PE := .named c!"_time"

/-- body of `rate`, stat_fns.rs:240-247 -/
def rateBody (x : PE) : PE :=
  PE.mkBin (PE.mkBin (.fn c!"last" [x]) c!"-" (.fn c!"first" [x])) c!"/"
    (PE.mkBin (.fn c!"max" [timeCol]) c!"-" (.fn c!"min" [timeCol]))

/-- The arms of `stats_fn_bare` with a translation and a fixed name, stat_fns.rs:112-247. -/
def statsTable : List (Str × FnSpec) :=
  [ (c!"avg", fn1 c!"avg" c!"avg"),
    (c!"count", ⟨c!"count", [], .mapped, fun _ _ ms => match ms with
      | [] => some (.fn c!"count" [.lit c!"1"])
      | [x] => some (.fn c!"count" [x])
      | _ => none⟩),
    (c!"distinct_count", fn1 c!"distinct_count" c!"count_distinct"),
    (c!"dc", fn1 c!"dc" c!"count_distinct"),
    (c!"estdc", fn1 c!"estdc" c!"approx_count_distinct"),
    (c!"max", fn1 c!"max" c!"max"),
    (c!"mean", fn1 c!"mean" c!"avg"),
    (c!"median", .one c!"median" fun x => .fn c!"percentile_approx" [x, .lit c!"0.5"]),
    (c!"min", fn1 c!"min" c!"min"),
    (c!"mode", fn1 c!"mode" c!"mode"),
    (c!"range", .one c!"range" fun x => .fn c!"max" [PE.mkBin x c!"-" (.fn c!"min" [x])]),
    (c!"stdev", fn1 c!"stdev" c!"stddev_samp"),
    (c!"stdevp", fn1 c!"stdevp" c!"stddev_pop"),
    (c!"sum", fn1 c!"sum" c!"sum"),
    (c!"sumsq", .one c!"sumsq" fun x => .fn c!"sum" [PE.mkBin x c!"*" x]),
    (c!"var", fn1 c!"var" c!"var_samp"),
    (c!"varp", fn1 c!"varp" c!"var_pop"),
    (c!"first", .one c!"first" fun x => .fn c!"first" [x, pyBool true]),
    (c!"last", .one c!"last" fun x => .fn c!"last" [x, pyBool true]),
    (c!"list", fn1 c!"list" c!"collect_list"),
    (c!"values", fn1 c!"values" c!"collect_set"),
    (c!"earliest", .one c!"earliest" fun x => .fn c!"first" [x, pyBool true]),
    (c!"earliest_time", ⟨c!"earliest_time", [], .mapped, fun _ _ _ => some (.fn c!"min" [timeCol])⟩),
    (c!"latest", .one c!"latest" fun x => .fn c!"last" [x, pyBool true]),
    (c!"latest_time", ⟨c!"latest_time", [], .mapped, fun _ _ _ => some (.fn c!"max" [timeCol])⟩),
    (c!"rate", .one c!"rate" rateBody) ]

/-- The arms of `stats_fn_bare` that only `bail!`. -/
def statsUnsupported : List Str :=
  [c!"estdc_error", c!"per_day", c!"per_hour", c!"per_minute", c!"per_second", c!"rate_avg", c!"rate_sum"]

/-- The functions that first sort the data frame by `_time`, stat_fns.rs:202-205,211-214,240-241 -/
def statsSorts (name : Str) : Bool :=
  name = c!"earliest" || name = c!"latest" || name = c!"rate"

/-- Selection of the arm of `stats_fn_bare`, stat_fns.rs:112-277. -/
def statsSpec (name : Str) : Option FnSpec :=
  match lookupFn name statsTable with
  | some f => some f
  | none =>
    if c!"exactperc".isPrefixOf name then some (percentileSpec c!"exactperc" c!"percentile" name)
    else if c!"percentile".isPrefixOf name then some (percentileSpec c!"percentile" c!"percentile_approx" name)
    else if c!"upperperc".isPrefixOf name then some (percentileSpec c!"upperperc" c!"percentile_approx" name)
    else none

/-- column part of `stats_fn_bare` -/
def statsFnBareCol (name : Str) (args : List Arg) : Option PE :=
  match statsSpec name with
  | some f => f.apply args
  | none => if name ∈ statsUnsupported then none else passThrough name args

/-- `stats_fn_bare`, stat_fns.rs:107-280 -/
def statsFnBare (name : Str) (args : List Arg) (df : DF) : Option (DF × PE) :=
  (statsFnBareCol name args).map fun e =>
    (if statsSorts name then .orderBy df [PE.mkMethod timeCol c!"asc" []] else df, e)

/-- `stats_fn_runtime`, stat_fns.rs:89-105 -/
def statsFnRuntime (name : Str) (args : List Arg) (df : DF) : Option (DF × PE) :=
  (mapArgs args).map fun xs => (df, .fn (c!"functions.stats." ++ name) xs)

/-- the dispatch of `stats_fn`, stat_fns.rs:79-84 -/
def statsFn (m : Mode) (name : Str) (args : List Arg) (df : DF) : Option (DF × PE) :=
  match m with
  | .disallow => statsFnBare name args df
  | .require => statsFnRuntime name args df
  | .allow => orElse (statsFnRuntime name args df) (statsFnBare name args df)

/-- `convert_fn`, functions/convert_fns.rs:41-75 -/
def convertFn (timeformat : Str) (c : FieldConversion) : Option PE :=
  let col := PE.named c.field
  if c.func = c!"ctime" then ctimeFn col timeformat
  else if c.func = c!"memk" then some (memkFn col)
  else if c.func = c!"rmunit" then some (rmunitFn col)
  else if c.func = c!"rmcomma" then some (rmcommaFn col)
  else some (.aliased (.fn c.func [col]) c.func)

end Verif
