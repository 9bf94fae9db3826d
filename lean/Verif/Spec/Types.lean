import Verif.Spec.Python
import Verif.Spl.Ast
/-
Specification: the parts of the PySpark 4 programming interface a generated program uses, as types.  Written from
the signatures in the PySpark API reference (`pyspark.sql.functions`, `Column`, `DataFrame`, `GroupedData`),
independently of the translation.

`typeOf` checks an expression from the inside out: every function and method must exist, on an object that has it,
and be called with as many arguments, of the kinds, its signature admits.  Errors that Spark only finds when it
analyses the query (a column that is not there, an aggregate where none is allowed, values of the wrong type) are no
part of this.
-/
namespace Verif.Spec
open Verif

/-- What a Python expression of a generated program can be. -/
inductive Ty
  /-- `pyspark.sql.functions`, under the name `F` -/
  | functions
  /-- the `SparkSession`, under the name `spark` -/
  | session
  | frame
  | grouped
  /-- a Python list of rows -/
  | rows
  /-- a Python list of columns or names of columns -/
  | columns
  | col
  | text
  | int
  | float
  | bool
  | none
  /-- a Python function -/
  | func
deriving DecidableEq, Repr

/-- The kinds of parameters. -/
inductive Par
  /-- `ColumnOrName` -/
  | c
  /-- `Column` -/
  | column
  /-- `str` -/
  | text
  /-- `int` -/
  | int
  /-- `bool` -/
  | bool
  /-- `Column`, `int` or `float` -/
  | num
  /-- `ColumnOrName` or `float` -/
  | cnum
  /-- a value or a `Column` -/
  | any
  /-- a data frame -/
  | frame
  /-- a list of `ColumnOrName` -/
  | columns
  /-- a Python function -/
  | func
deriving DecidableEq, Repr

/-- Does an argument suit a parameter? -/
def Par.accepts : Par → Ty → Bool
  | .c, t => t == .col || t == .text
  | .column, t => t == .col
  | .text, t => t == .text
  | .int, t => t == .int
  | .bool, t => t == .bool
  | .num, t => t == .col || t == .int || t == .float
  | .cnum, t => t == .col || t == .text || t == .int || t == .float
  | .any, t => t == .col || t == .text || t == .int || t == .float || t == .bool || t == .none
  | .frame, t => t == .frame
  | .columns, t => t == .columns
  | .func, t => t == .func

/-- Parameters that must be given, parameters that may be, and the kind of any further ones. -/
structure Sig where
  need : List Par
  may : List Par
  rest : Option Par

/-- optional parameters and those after them -/
def Sig.tail (rest : Option Par) : List Par → List Ty → Bool
  | _, [] => true
  | p :: ps, t :: ts => p.accepts t && Sig.tail rest ps ts
  | [], ts => match rest with
    | none => false
    | some p => ts.all p.accepts

/-- Can a function with these parameters be called with these arguments? -/
def Sig.fits (rest : Option Par) (may : List Par) : List Par → List Ty → Bool
  | p :: ps, t :: ts => p.accepts t && Sig.fits rest may ps ts
  | _ :: _, [] => false
  | [], ts => Sig.tail rest may ts

/-- Look a name up in a list of signatures. -/
def callable (sigs : List (Str × Sig)) (f : Str) (ts : List Ty) : Bool :=
  sigs.any fun x => x.1 == f && Sig.fits x.2.rest x.2.may x.2.need ts

/-- functions of one column -/
def oneColumn : List Str :=
  [c!"abs", c!"exp", c!"sqrt", c!"sum", c!"md5", c!"sha1", c!"bitwise_not", c!"isnull", c!"isnotnull",
   c!"json_object_keys", c!"size", c!"length", c!"lower", c!"upper", c!"url_decode", c!"acos", c!"acosh", c!"asin",
   c!"asinh", c!"atan", c!"atanh", c!"cos", c!"cosh", c!"sin", c!"sinh", c!"tan", c!"tanh", c!"avg", c!"mean", c!"count",
   c!"max", c!"min", c!"stddev", c!"stddev_samp", c!"stddev_pop", c!"variance", c!"var_samp", c!"var_pop", c!"collect_list",
   c!"collect_set", c!"sum_distinct", c!"kurtosis", c!"skewness", c!"product", c!"median", c!"ln", c!"log10", c!"log2",
   c!"degrees", c!"radians", c!"sec", c!"csc", c!"cot", c!"cbrt", c!"year", c!"month", c!"day", c!"hour", c!"minute",
   c!"second", c!"dayofweek", c!"dayofmonth", c!"dayofyear", c!"weekofyear", c!"quarter", c!"last_day", c!"to_date",
   c!"ascii", c!"base64", c!"unbase64", c!"hex", c!"unhex", c!"initcap", c!"reverse", c!"isnan", c!"explode", c!"crc32",
   c!"array_distinct", c!"array_max", c!"array_min", c!"signum", c!"factorial", c!"soundex", c!"typeof", c!"timestamp_seconds"]

/-- functions of a column and an optional number of digits -/
def scaled : List Str := [c!"ceil", c!"floor", c!"round", c!"bround"]

/-- functions of two columns -/
def twoColumns : List Str :=
  [c!"nullif", c!"ifnull", c!"nvl", c!"regexp_like", c!"rlike", c!"contains", c!"startswith", c!"endswith", c!"levenshtein",
   c!"datediff", c!"left", c!"right"]

/-- The functions of `pyspark.sql.functions` that are called, and some others that take columns only. -/
def functionSigs : List (Str × Sig) :=
  oneColumn.map (fun f => (f, ⟨[.c], [], none⟩)) ++
  scaled.map (fun f => (f, ⟨[.c], [.int], none⟩)) ++
  twoColumns.map (fun f => (f, ⟨[.c, .c], [], none⟩)) ++
  [ (c!"col", ⟨[.text], [], none⟩),
    (c!"lit", ⟨[.any], [], none⟩),
    (c!"expr", ⟨[.text], [], none⟩),
    (c!"when", ⟨[.column, .any], [], none⟩),
    (c!"coalesce", ⟨[], [], some .c⟩),
    (c!"concat", ⟨[], [], some .c⟩),
    (c!"concat_ws", ⟨[.text], [], some .c⟩),
    (c!"array", ⟨[], [], some .c⟩),
    (c!"hash", ⟨[], [], some .c⟩),
    (c!"greatest", ⟨[.c, .c], [], some .c⟩),
    (c!"least", ⟨[.c, .c], [], some .c⟩),
    (c!"log", ⟨[.cnum], [.c], none⟩),
    (c!"pow", ⟨[.cnum, .cnum], [], none⟩),
    (c!"atan2", ⟨[.cnum, .cnum], [], none⟩),
    (c!"hypot", ⟨[.cnum, .cnum], [], none⟩),
    (c!"shiftleft", ⟨[.c, .int], [], none⟩),
    (c!"shiftright", ⟨[.c, .int], [], none⟩),
    (c!"sha2", ⟨[.c, .int], [], none⟩),
    (c!"like", ⟨[.c, .c], [.column], none⟩),
    (c!"ltrim", ⟨[.c], [.c], none⟩),
    (c!"rtrim", ⟨[.c], [.c], none⟩),
    (c!"trim", ⟨[.c], [.c], none⟩),
    (c!"substring", ⟨[.c, .num, .num], [], none⟩),
    (c!"get", ⟨[.c, .cnum], [], none⟩),
    (c!"slice", ⟨[.c, .cnum, .cnum], [], none⟩),
    (c!"split", ⟨[.c, .c], [.cnum], none⟩),
    (c!"zip_with", ⟨[.c, .c, .func], [], none⟩),
    (c!"regexp_replace", ⟨[.c, .c, .c], [], none⟩),
    (c!"regexp_extract", ⟨[.c, .text, .int], [], none⟩),
    (c!"get_json_object", ⟨[.c, .text], [], none⟩),
    (c!"date_format", ⟨[.c, .text], [], none⟩),
    (c!"to_timestamp", ⟨[.c], [.text], none⟩),
    (c!"date_trunc", ⟨[.text, .c], [], none⟩),
    (c!"current_timestamp", ⟨[], [], none⟩),
    (c!"rand", ⟨[], [.int], none⟩),
    (c!"window", ⟨[.c, .text], [.text, .text], none⟩),
    (c!"approx_count_distinct", ⟨[.c], [.num], none⟩),
    (c!"count_distinct", ⟨[.c], [], some .c⟩),
    (c!"mode", ⟨[.c], [.bool], none⟩),
    (c!"percentile", ⟨[.c, .num], [.num], none⟩),
    (c!"percentile_approx", ⟨[.c, .num], [.num], none⟩),
    (c!"first", ⟨[.c], [.bool], none⟩),
    (c!"last", ⟨[.c], [.bool], none⟩) ]

/-- methods of `Column`, all of which give a column -/
def columnSigs : List (Str × Sig) :=
  [ (c!"alias", ⟨[.text], [], some .text⟩),
    (c!"like", ⟨[.text], [], none⟩),
    (c!"ilike", ⟨[.text], [], none⟩),
    (c!"when", ⟨[.column, .any], [], none⟩),
    (c!"otherwise", ⟨[.any], [], none⟩),
    (c!"cast", ⟨[.text], [], none⟩),
    (c!"isin", ⟨[], [], some .any⟩),
    (c!"isNotNull", ⟨[], [], none⟩),
    (c!"isNull", ⟨[], [], none⟩),
    (c!"asc", ⟨[], [], none⟩),
    (c!"desc", ⟨[], [], none⟩),
    (c!"bitwiseAND", ⟨[.num], [], none⟩),
    (c!"bitwiseOR", ⟨[.num], [], none⟩),
    (c!"bitwiseXOR", ⟨[.num], [], none⟩) ]

/-- methods of `DataFrame` that give a data frame -/
def frameSigs : List (Str × Sig) :=
  [ (c!"select", ⟨[], [], some .c⟩),
    (c!"where", ⟨[.c], [], none⟩),
    (c!"withColumn", ⟨[.text, .column], [], none⟩),
    (c!"withColumnRenamed", ⟨[.text, .text], [], none⟩),
    (c!"orderBy", ⟨[.c], [], some .c⟩),
    (c!"limit", ⟨[.int], [], none⟩),
    (c!"join", ⟨[.frame], [.column, .text], none⟩),
    (c!"alias", ⟨[.text], [], none⟩),
    (c!"fillna", ⟨[.any], [.text], none⟩),
    (c!"unionByName", ⟨[.frame], [.bool], none⟩) ]

/-- The result of a call of the method or function `f` of an object. -/
def callType (o : Ty) (f : Str) (ts : List Ty) : Option Ty :=
  match o with
  | .functions => if callable functionSigs f ts then some .col else none
  | .session =>
    if callable [(c!"table", ⟨[.text], [], none⟩), (c!"range", ⟨[.int], [.int, .int, .int], none⟩)] f ts then some .frame else none
  | .col => if callable columnSigs f ts then some .col else none
  | .frame =>
    if callable frameSigs f ts then some .frame
    else if f = c!"tail" ∧ ts = [.int] then some .rows
    else if callable [(c!"groupBy", ⟨[], [.columns], none⟩)] f ts then some .grouped
    else none
  | .grouped => if callable [(c!"agg", ⟨[.column], [], some .column⟩)] f ts then some .frame else none
  | _ => none

/-- the binary operators of `Column` -/
def columnOps : List Str :=
  [c!"==", c!"!=", c!"<", c!"<=", c!">", c!">=", c!"+", c!"-", c!"*", c!"/", c!"%", c!"&", c!"|"]

/-- The session, the module of functions and the constants; nothing else is defined. -/
def nameType (n : Str) : Option Ty :=
  if n = c!"F" then some .functions
  else if n = c!"spark" then some .session
  else if n = c!"True" ∨ n = c!"False" then some .bool
  else if n = c!"None" then some .none
  else none

/-- one of the parameters -/
def isParam (ps : List Str) : PyE → Bool
  | .name n => ps.contains n
  | _ => false

mutual
/-- The type of an expression, if every call in it is admitted. -/
def typeOf : PyE → Option Ty
  | .name n => nameType n
  | .num _ frac => some (if frac = [] then .int else .float)
  | .str _ => some .text
  | .call (.attr e f) args =>
    match typeOf e, typesOf args with
    | some o, some ts => callType o f ts
    | _, _ => none
  | .call _ _ => none
  | .attr _ _ => none
  | .kwarg n e => if n = c!"allowMissingColumns" then typeOf e else none
  | .list es =>
    match typesOf es with
    | some ts => if ts.all Par.c.accepts then some .columns else none
    | none => none
  | .dict _ => none
  | .inv e => if typeOf e = some .col then some .col else none
  | .lam ps (.call (.attr (.name m) f) args) =>
    match typesIn ps args with
    | some ts => if m = c!"F" ∧ m ∉ ps ∧ callable functionSigs f ts then some .func else none
    | none => none
  | .lam _ _ => none
  | .neg e =>
    match typeOf e with
    | some .col => some .col
    | some .int => some .int
    | some .float => some .float
    | _ => none
  | .bin op l r =>
    match typeOf l, typeOf r with
    | some a, some b =>
      if op ∈ columnOps ∧ ((a = .col ∧ Par.any.accepts b) ∨ (b = .col ∧ Par.any.accepts a)) then some .col else none
    | _, _ => none

/-- the types of the arguments in the body of a lambda expression, its parameters being columns -/
def typesIn (ps : List Str) : List PyE → Option (List Ty)
  | [] => some []
  | e :: es =>
    match (if isParam ps e then some .col else typeOf e), typesIn ps es with
    | some t, some ts => some (t :: ts)
    | _, _ => none

/-- the types of arguments -/
def typesOf : List PyE → Option (List Ty)
  | [] => some []
  | e :: es =>
    match typeOf e, typesOf es with
    | some t, some ts => some (t :: ts)
    | _, _ => none
end

/-! ### which queries have an admitted translation -/

/-- The evaluation functions of SPL. -/
def evalFunctions : List Str :=
  [ c!"memk", c!"rmunit", c!"rmcomma",
    c!"bit_and", c!"bit_or", c!"bit_not", c!"bit_xor", c!"bit_shift_left", c!"bit_shift_right",
    c!"case", c!"cidrmatch", c!"coalesce", c!"false", c!"if", c!"in", c!"like", c!"lookup", c!"match", c!"null", c!"nullif",
    c!"searchmatch", c!"true", c!"validate",
    c!"ipmask", c!"printf", c!"tonumber", c!"tostring",
    c!"md5", c!"sha1", c!"sha256", c!"sha512",
    c!"now", c!"relative_time", c!"strftime", c!"strptime", c!"time",
    c!"isbool", c!"isint", c!"isnotnull", c!"isnull", c!"isnum", c!"isstr", c!"typeof",
    c!"json_object", c!"json_append", c!"json_array", c!"json_array_to_mv", c!"json_extend", c!"json_extract",
    c!"json_extract_exact", c!"json_keys", c!"json_set", c!"json_set_exact", c!"json_valid",
    c!"abs", c!"ceiling", c!"exact", c!"exp", c!"floor", c!"ln", c!"log", c!"pi", c!"pow", c!"round", c!"sigfig", c!"sqrt", c!"sum",
    c!"commands", c!"mvappend", c!"mvcount", c!"mvdedup", c!"mvfilter", c!"mvfind", c!"mvindex", c!"mvjoin", c!"mvmap",
    c!"mvrange", c!"mvsort", c!"mvzip", c!"mv_to_json_array", c!"split",
    c!"avg", c!"max", c!"min", c!"random",
    c!"len", c!"lower", c!"ltrim", c!"replace", c!"rtrim", c!"spath", c!"substr", c!"trim", c!"upper", c!"urldecode",
    c!"acos", c!"acosh", c!"asin", c!"asinh", c!"atan", c!"atan2", c!"atanh", c!"cos", c!"cosh", c!"hypot", c!"sin", c!"sinh",
    c!"tan", c!"tanh" ]

/-- A call of a function SPL documents, or of a function PySpark has under the same name and that takes columns. -/
def okEval (f : Str) (n : Nat) : Bool := evalFunctions.contains f || (callable functionSigs f (List.replicate n .col) && !f.contains '.')

/-- The statistics functions of SPL. -/
def statsFunctions : List Str :=
  [ c!"avg", c!"count", c!"distinct_count", c!"dc", c!"estdc", c!"estdc_error", c!"max", c!"mean", c!"median", c!"min", c!"mode",
    c!"range", c!"stdev", c!"stdevp", c!"sum", c!"sumsq", c!"var", c!"varp", c!"first", c!"last", c!"list", c!"values",
    c!"earliest", c!"earliest_time", c!"latest", c!"latest_time", c!"per_day", c!"per_hour", c!"per_minute", c!"per_second",
    c!"rate", c!"rate_avg", c!"rate_sum" ]

/-- The same for statistics; percentiles have their number in their name. -/
def okStats (f : Str) (n : Nat) : Bool :=
  statsFunctions.contains f || c!"exactperc".isPrefixOf f || c!"percentile".isPrefixOf f || c!"upperperc".isPrefixOf f ||
    (callable functionSigs f (List.replicate n .col) && !f.contains '.')

/-- a decimal numeral -/
def decimal (d : Dbl) : Bool := d.whole.all isDig && d.whole != [] && d.frac.all isDig

/-- the operators with a counterpart on columns; words in capitals -/
def okOps : List Str :=
  [c!"*", c!"/", c!"+", c!"-", c!"=", c!"==", c!"!=", c!"<", c!"<=", c!">", c!">=", c!"AND", c!"OR"]

/-- a value in the list of `IN` -/
def okMember : Expr → Bool
  | .const (.double d) => decimal d
  | _ => true

mutual
/-- Operators and functions as above, and no word `true` or `false`. -/
def okExpr : Expr → Bool
  | .binary l op r => okOps.contains op && okExpr l && okExpr r
  | .unary _ r => okExpr r
  | .call f args => okEval f args.length && okExprs args
  | .fieldIn _ es => es.all okMember
  | .const (.bool _) => false
  | .const (.double d) => decimal d
  | _ => true

/-- the same for several -/
def okExprs : List Expr → Bool
  | [] => true
  | e :: es => okExpr e && okExprs es
end

/-- a statistic -/
def okStat : Expr → Bool
  | .alias e _ => okStat e
  | .call f args => okStats f args.length && okExprs args
  | _ => true

/-- the functions of `convert` -/
def okConversion (f : Str) : Bool :=
  [c!"ctime", c!"memk", c!"rmunit", c!"rmcomma"].contains f || (callable functionSigs f [.col] && !f.contains '.')

mutual
/-- Commands that give a data frame. -/
def okCmd : Command → Bool
  | .search e | .where_ e => okExpr e
  | .eval as => as.all fun a => okExpr a.2
  | .stats _ es _ _ => es.all okStat
  | .tstats _ es _ _ w _ _ => es.all okStat && w.all okExpr
  | .convert _ cs => cs.all fun c => okConversion c.func
  | .makeResults a => !a.annotate || a.serverGroup.isNone
  | .top _ | .rare _ | .tail _ => false
  | .join _ _ sub => okCmds sub
  | .multiSearch ps => okSearches ps
  | _ => true

/-- commands one after the other -/
def okCmds : List Command → Bool
  | [] => true
  | c :: cs => okCmd c && okCmds cs

/-- the searches of `multisearch` -/
def okSearches : List (List Command) → Bool
  | [] => true
  | p :: ps => okCmds p && okSearches ps
end

/-- A query; `tail` can come last. -/
def okQuery : List Command → Bool
  | [] => true
  | [.tail _] => true
  | c :: cs => okCmd c && okQuery cs

end Verif.Spec
