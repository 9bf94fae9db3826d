import Verif.Tr.Funcs
import Verif.Spec.Python
/-
The Python runtime library: /repo/python/spl_transpiler/runtime/base.py and
runtime/functions/{eval,stats}.py, as far as the generated code uses it.

A value is what a Python expression of the generated code evaluates to; `none` is a raised
exception.  A column is represented by the PySpark expression that builds it (`PE`), so evaluating
a library call yields the expression one could have written instead of the call.

What is taken from outside the repository (pydantic 2, PySpark 3.5) and not modelled further:
* `validate_call` converts every positional argument to the annotated type, in order, fills in
  defaults, and rejects missing and surplus arguments; an unannotated parameter takes any value;
  a column is not an `int`, `str`, `list`, `bool` or `TimeSpan`, and is rejected for such a
  parameter; with `validate_return=True` the result is converted to the annotated return type.
* the operators and methods of a column, and the functions of `F`, take columns and plain Python
  values; given an `Expr` object, a `StatsFunction` object or a module they raise.
* `Expr` objects have no operators and none of the methods of a column.
-/
namespace Verif.Rt
open Verif

/-- Run-time values. -/
inductive RV
  /-- a `pyspark.sql.Column` -/
  | col (c : PE)
  /-- a Python literal (string, number, `True`, `None`, ...) with its source text -/
  | lit (code : Str)
  /-- an `Expr` object (base.py:18-50); `some c`: its `to_pyspark_expr()` is the column `c`,
  `none`: it is not a column -/
  | obj (c : Option PE)
  /-- a `StatsFunction` object (stats.py:9-16): whether its `to_pyspark_expr` first sorts the data
  frame by `_time`, and the aggregate column; `none`: `to_pyspark_expr` raises -/
  | agg (sorts : Bool) (c : Option PE)

/-- the text denoted by a Python string literal -/
def strOf (code : Str) : Option Str :=
  match Spec.pyString code with
  | some (s, []) => some s
  | _ => none

/-- the source text of an integer literal -/
def isIntText (code : Str) : Bool :=
  match code with
  | '-' :: ds => !ds.isEmpty && ds.all isDig
  | ds => !ds.isEmpty && ds.all isDig

/-- Annotated types of the parameters. -/
inductive PTy
  /-- `Expr` -/
  | expr
  /-- `int` -/
  | int
  /-- `str` -/
  | str
  /-- `list`, `bool`, `TimeSpan | None`, `TimeScale | None`: no expression of the generated code is one -/
  | never
  /-- no annotation -/
  | any
deriving DecidableEq

/-- a converted argument -/
inductive AV
  /-- an `Expr` object -/
  | e (c : Option PE)
  /-- a plain Python value -/
  | k (code : Str)
  /-- a value passed to an unannotated parameter -/
  | v (r : RV)
  /-- the parameter's default -/
  | dflt

/-- `Expr.support_plain_types` (base.py:22-39) followed by `to_pyspark_expr` (41-50): an `Expr`
object is kept, a string is a column name, any other literal a literal column, a column is itself;
another `BaseModel` is rejected. -/
def RV.toExpr : RV → Option (Option PE)
  | .col c => some (some c)
  | .lit code => some (some (match strOf code with | some s => .named s | none => .lit code))
  | .obj c => some c
  | .agg .. => none

/-- conversion of one argument.  Simplification: pydantic's conversions between `int`, `float`,
`bool` and `str` literals are left out (a literal of the other type is rejected). -/
def conv : PTy → RV → Option AV
  | .expr, v => v.toExpr.map .e
  | .int, .lit code => if isIntText code then some (.k code) else none
  | .str, .lit code => if (strOf code).isSome then some (.k code) else none
  | .any, v => some (.v v)
  | _, _ => none

/-- What the body of a function returns, before the conversion of the result. -/
inductive Ret
  | col (c : PE)
  /-- no `return` statement: `None` (only in functions annotated `-> Expr`) -/
  | none_
  /-- an object that is no column -/
  | other

/-- A function of `functions.eval`. -/
structure LibFn where
  /-- positional parameters; `true`: without default -/
  params : List (PTy × Bool)
  /-- annotation of `*args` -/
  rest : Option PTy
  /-- is the return type annotated `-> Expr`? -/
  ann : Bool
  /-- parameters, then the elements of `*args`; `none`: raises -/
  body : List AV → Option Ret

/-- the arguments that remain after the parameters -/
def bindRest : Option PTy → List RV → Option (List AV)
  | _, [] => some []
  | none, _ :: _ => none
  | some t, v :: vs => match conv t v with
    | none => none
    | some a => match bindRest (some t) vs with
      | none => none
      | some as => some (a :: as)

/-- positional binding -/
def bindArgs (rest : Option PTy) : List (PTy × Bool) → List RV → Option (List AV)
  | [], vs => bindRest rest vs
  | (_, req) :: ps, [] => if req then none else match bindArgs rest ps [] with
    | none => none
    | some as => some (.dflt :: as)
  | (t, _) :: ps, v :: vs => match conv t v with
    | none => none
    | some a => match bindArgs rest ps vs with
      | none => none
      | some as => some (a :: as)

/-- conversion of the result: with `-> Expr` it becomes an `Expr` object -/
def retVal (ann : Bool) : Ret → RV
  | .col c => if ann then .obj (some c) else .col c
  | .none_ => .obj (some (.lit c!"None"))
  | .other => .obj none

/-- a call -/
def LibFn.call (f : LibFn) (vs : List RV) : Option RV :=
  match bindArgs f.rest f.params vs with
  | none => none
  | some as => (f.body as).map (retVal f.ann)

/-! ### kinds of functions -/

/-- `def f(x: Expr) -> Expr: return <column>` -/
def lib1 (ann : Bool) (f : PE → PE) : LibFn :=
  ⟨[(.expr, true)], none, ann, fun | [.e (some x)] => some (.col (f x)) | _ => none⟩

/-- `def f(x: Expr, y: Expr) -> Expr: return <column>` -/
def lib2 (f : PE → PE → PE) : LibFn :=
  ⟨[(.expr, true), (.expr, true)], none, true,
    fun | [.e (some x), .e (some y)] => some (.col (f x y)) | _ => none⟩

/-- `def f() -> Expr: return <column>` -/
def lib0 (c : PE) : LibFn := ⟨[], none, true, fun _ => some (.col c)⟩

/-- a function whose body only raises `NotImplementedError`; its parameters do not matter -/
def libNI : LibFn := ⟨[], some .any, true, fun _ => none⟩

/-- `F.name(x)` -/
def fcall1 (f : Str) : LibFn := lib1 true fun x => .fn f [x]

/-- `F.name(x, y)` -/
def fcall2 (f : Str) : LibFn := lib2 fun x y => .fn f [x, y]

/-- a plain value as an argument of a column function -/
def kArg (code : Str) : PE := .py code

/-- the columns of `Expr` objects -/
def colsOf : List AV → Option (List PE)
  | [] => some []
  | .e (some c) :: as => (colsOf as).map (c :: ·)
  | _ => none

/-- the columns of unannotated arguments that are `Expr` objects (a column has no method
`to_pyspark_expr`) -/
def objsOf : List AV → Option (List PE)
  | [] => some []
  | .v (.obj (some c)) :: as => (objsOf as).map (c :: ·)
  | _ => none

/-- The functions of functions/eval.py. -/
def libEval : List (Str × LibFn) :=
  [ -- bitwise, 18-71; `bit_and` has no `return`
    (c!"bit_and", ⟨[(.expr, true), (.expr, true)], none, true,
      fun | [.e (some _), .e (some _)] => some .none_ | _ => none⟩),
    (c!"bit_or", lib2 fun a b => .method a c!"bitwiseOR" [b]),
    (c!"bit_not", fcall1 c!"bitwise_not"),
    (c!"bit_xor", lib2 fun a b => .method a c!"bitwiseXOR" [b]),
    (c!"bit_shift_left", ⟨[(.expr, true), (.int, true)], none, true,
      fun | [.e (some x), .k n] => some (.col (.fn c!"shiftleft" [x, kArg n])) | _ => none⟩),
    (c!"bit_shift_right", ⟨[(.expr, true), (.int, true)], none, true,
      fun | [.e (some x), .k n] => some (.col (.fn c!"shiftright" [x, kArg n])) | _ => none⟩),
    -- comparison and conditional, 93-266; `case` drops the branches and returns the module `F`
    (c!"case", ⟨[], some .expr, true, fun as => match colsOf as with
      | none => none
      | some cs => if cs.length % 2 = 0 && !cs.isEmpty then some .other else none⟩),
    (c!"cidrmatch", lib2 fun a b => .fn c!"udfs.cidr_match" [a, b]),
    (c!"coalesce", ⟨[], some .expr, true, fun as => (colsOf as).map fun cs => .col (.fn c!"coalesce" cs)⟩),
    (c!"false", lib0 (.lit c!"False")),
    (c!"if_", ⟨[(.expr, true), (.expr, true), (.expr, true)], none, true,
      fun | [.e (some c), .e (some t), .e (some f)] =>
            some (.col (.method (.fn c!"when" [c, t]) c!"otherwise" [f]))
          | _ => none⟩),
    (c!"in_", ⟨[(.expr, true), (.never, true)], none, true, fun _ => none⟩),
    (c!"like", fcall2 c!"like"),
    (c!"lookup", libNI),
    (c!"match", fcall2 c!"regexp_like"),
    (c!"null", lib0 (.lit c!"None")),
    (c!"nullif", fcall2 c!"nullif"),
    (c!"searchmatch", libNI),
    (c!"true", lib0 (.lit c!"True")),
    (c!"validate", ⟨[], some .any, true, fun as => match objsOf as with
      | none => none
      | some cs => (caseBody true cs).map .col⟩),
    -- conversion, 277-314.  A user-defined function takes columns and names of columns: `printf` hands it a list,
    -- `tonumber` its base, a number, and `tostring` its default format `None`, and they raise.
    (c!"ipmask", lib2 fun a b => .fn c!"udfs.ipmask" [a, b]),
    (c!"printf", ⟨[(.expr, true)], some .expr, true, fun _ => none⟩),
    (c!"tonumber", ⟨[(.expr, true), (.int, false)], none, true, fun _ => none⟩),
    (c!"tostring", ⟨[(.any, true), (.any, false)], none, false,
      fun | [.v (.obj (some x)), .v (.col f)] => some (.col (.fn c!"udfs.tostring" [x, f])) | _ => none⟩),
    -- cryptographic, 323-356
    (c!"md5", fcall1 c!"md5"),
    (c!"sha1", fcall1 c!"sha1"),
    (c!"sha256", lib1 true fun x => .fn c!"sha2" [x, .py c!"256"]),
    (c!"sha512", lib1 true fun x => .fn c!"sha2" [x, .py c!"512"]),
    -- date and time, 365-442.  The format conversion of `strftime` and `strptime` is left out.
    (c!"now", lib0 (.fn c!"current_timestamp" [])),
    (c!"relative_time", ⟨[(.expr, true), (.never, false), (.never, false), (.never, false)], none, true,
      fun | .e (some x) :: _ => some (.col (.fn c!"to_timestamp" [x])) | _ => none⟩),
    (c!"strftime", ⟨[(.expr, true), (.str, true), (.any, false)], none, true,
      fun | .e (some x) :: .k f :: _ => some (.col (.fn c!"date_format" [x, .fn c!"utils.convert_time_format" [kArg f]]))
          | _ => none⟩),
    (c!"strptime", ⟨[(.str, true), (.str, true), (.any, false)], none, true,
      fun | .k d :: .k f :: _ => some (.col (.fn c!"to_timestamp" [kArg d, .fn c!"utils.convert_time_format" [kArg f]]))
          | _ => none⟩),
    (c!"time", lib0 (.fn c!"current_timestamp" [])),
    -- informational, 453-517
    (c!"isbool", libNI), (c!"isint", libNI),
    (c!"isnotnull", fcall1 c!"isnotnull"),
    (c!"isnull", fcall1 c!"isnull"),
    (c!"isnum", libNI), (c!"isstr", libNI), (c!"typeof", libNI),
    -- JSON, 528-640
    (c!"json_object", libNI), (c!"json_append", libNI), (c!"json_array", libNI),
    (c!"json_array_to_mv", libNI), (c!"json_extend", libNI), (c!"json_extract", libNI),
    (c!"json_extract_exact", libNI),
    (c!"json_keys", fcall1 c!"json_object_keys"),
    (c!"json_set", libNI), (c!"json_set_exact", libNI),
    (c!"json_valid", lib1 true fun x => .method (.fn c!"get_json_object" [x, .py c!"\"$\""]) c!"isNotNull" []),
    -- mathematical, 649-766; `sum_` calls the builtin `sum` with the columns as its arguments, and
    -- a column cannot be iterated over
    (c!"abs", fcall1 c!"abs"),
    (c!"ceiling", fcall1 c!"ceil"),
    (c!"exact", lib1 true fun x => .method x c!"cast" [.py c!"\"double\""]),
    (c!"exp", fcall1 c!"exp"),
    (c!"floor", fcall1 c!"floor"),
    (c!"ln", fcall1 c!"log"),
    -- `F.log` takes the number second, as a column, and is given the base there
    (c!"log", ⟨[(.expr, true), (.int, false)], none, true, fun _ => none⟩),
    (c!"pi", lib0 (.lit c!"3.141592653589793")),
    (c!"pow", fcall2 c!"pow"),
    (c!"round", ⟨[(.expr, true), (.int, false)], none, true,
      fun | [.e (some x), .dflt] => some (.col (.fn c!"round" [x, .py c!"0"]))
          | [.e (some x), .k n] => some (.col (.fn c!"round" [x, kArg n]))
          | _ => none⟩),
    (c!"sqrt", fcall1 c!"sqrt"),
    (c!"sum_", ⟨[], some .expr, true, fun _ => none⟩),
    -- multivalue, 777-946; `mvappend` iterates over an `Expr` object, `mvzip` passes `Expr` objects
    -- to `F.zip_with`
    (c!"commands", libNI),
    (c!"mvappend", ⟨[(.expr, true)], none, true, fun _ => none⟩),
    (c!"mvcount", fcall1 c!"size"),
    (c!"mvdedup", libNI), (c!"mvfilter", libNI), (c!"mvfind", libNI),
    (c!"mvindex", ⟨[(.expr, true), (.int, true), (.int, false)], none, true,
      fun | [.e (some x), .k n, .dflt] => some (.col (.fn c!"get" [x, kArg n]))
          | [.e (some x), .k n, .k m] => some (.col (.fn c!"slice" [x, .fn c!"int.range" [kArg n, kArg m]]))
          | _ => none⟩),
    (c!"mvjoin", libNI), (c!"mvmap", libNI), (c!"mvrange", libNI), (c!"mvsort", libNI),
    (c!"mvzip", ⟨[(.expr, true), (.expr, true), (.str, false)], none, true, fun _ => none⟩),
    (c!"mv_to_json_array", libNI),
    (c!"split", ⟨[(.expr, true), (.str, true)], none, true,
      fun | [.e (some x), .k d] => some (.col (.fn c!"split" [x, kArg d])) | _ => none⟩),
    -- statistical, 967-1026; `avg` as `sum_`; `max_` and `min_` call `to_pyspark_expr` on the column
    -- accumulated so far as soon as there is a second argument
    (c!"avg", ⟨[], some .expr, true, fun _ => none⟩),
    (c!"max_", ⟨[], some .expr, true, fun | [.e (some x)] => some (.col x) | [.e none] => some .other | _ => none⟩),
    (c!"min_", ⟨[], some .expr, true, fun | [.e (some x)] => some (.col x) | [.e none] => some .other | _ => none⟩),
    (c!"random", lib0 (.fn c!"rand" [])),
    -- text, 1035-1130; no return annotation
    (c!"len_", lib1 false fun x => .fn c!"length" [x]),
    (c!"lower", lib1 false fun x => .fn c!"lower" [x]),
    (c!"ltrim", ⟨[(.expr, true), (.str, true)], none, false,
      fun | [.e (some x), .k d] => some (.col (.fn c!"ltrim" [x, kArg d])) | _ => none⟩),
    (c!"replace", ⟨[(.expr, true), (.str, true), (.str, true)], none, false,
      fun | [.e (some x), .k r, .k s] => some (.col (.fn c!"regexp_replace" [x, kArg r, kArg s])) | _ => none⟩),
    (c!"rtrim", ⟨[(.expr, true), (.str, true)], none, false,
      fun | [.e (some x), .k d] => some (.col (.fn c!"rtrim" [x, kArg d])) | _ => none⟩),
    (c!"spath", libNI),
    (c!"substr", ⟨[(.expr, true), (.int, true), (.int, true)], none, false,
      fun | [.e (some x), .k a, .k b] => some (.col (.fn c!"substring" [x, kArg a, kArg b])) | _ => none⟩),
    (c!"trim", ⟨[(.expr, true), (.str, true)], none, false,
      fun | [.e (some x), .k d] => some (.col (.fn c!"trim" [x, kArg d])) | _ => none⟩),
    (c!"upper", lib1 false fun x => .fn c!"upper" [x]),
    (c!"urldecode", lib1 false fun x => .fn c!"url_decode" [x]),
    -- trigonometry, 1139-1258
    (c!"acos", fcall1 c!"acos"), (c!"acosh", fcall1 c!"acosh"), (c!"asin", fcall1 c!"asin"),
    (c!"asinh", fcall1 c!"asinh"), (c!"atan", fcall1 c!"atan"), (c!"atan2", fcall2 c!"atan2"),
    (c!"atanh", fcall1 c!"atanh"), (c!"cos", fcall1 c!"cos"), (c!"cosh", fcall1 c!"cosh"),
    (c!"hypot", fcall2 c!"hypot"), (c!"sin", fcall1 c!"sin"), (c!"sinh", fcall1 c!"sinh"),
    (c!"tan", fcall1 c!"tan"), (c!"tanh", fcall1 c!"tanh") ]

/-- `functions.eval.<name>`; names the module merely imports (`F`, `reduce`, `Expr`, ...) are not
counted as functions -/
def lookupLib {α : Type} (name : Str) : List (Str × α) → Option α
  | [] => none
  | (n, f) :: rest => if n = name then some f else lookupLib name rest

/-- a call of `functions.eval.<name>` -/
def evalCall (name : Str) (vs : List RV) : Option RV :=
  match lookupLib name libEval with
  | none => none
  | some f => f.call vs

/-! ### functions/stats.py -/

/-- A function of `functions.stats`. -/
structure LibStat where
  params : List (PTy × Bool)
  sorts : Bool
  /-- the aggregate; the inner `none`: raises when the data frame is built -/
  body : List AV → Option (Option PE)

/-- `F.f(x)` -/
def stat1 (f : Str) : LibStat :=
  ⟨[(.expr, true)], false, fun | [.e c] => some (c.map fun x => .fn f [x]) | _ => none⟩

/-- an aggregate of one column -/
def statOf (sorts : Bool) (f : PE → PE) : LibStat :=
  ⟨[(.expr, true)], sorts, fun | [.e c] => some (c.map f) | _ => none⟩

/-- the percentile functions: `F.f(x, p / 100.0)` -/
def statPerc (f : Str) : LibStat :=
  ⟨[(.expr, true), (.int, true)], false,
    fun | [.e c, .k n] => some (c.map fun x => .fn f [x, .fn c!"int.percent" [kArg n]]) | _ => none⟩

/-- not implemented: the object can be created but not used -/
def statNI : LibStat := ⟨[(.expr, true)], false, fun _ => some none⟩

/-- The functions of functions/stats.py.  `ignorenulls=True` is written as the second positional
argument, which it is. -/
def libStats : List (Str × LibStat) :=
  [ (c!"avg", stat1 c!"avg"), -- 21-31
    (c!"count", ⟨[], false, fun _ => some (some (.fn c!"count" [.lit c!"1"]))⟩), -- 42-51
    (c!"distinct_count", stat1 c!"approx_count_distinct"), -- 61-71
    (c!"dc", stat1 c!"approx_count_distinct"), -- 74
    (c!"estdc", stat1 c!"approx_count_distinct"), -- 83-92
    (c!"estdc_error", statNI), -- 100-114
    (c!"exactperc", statPerc c!"percentile"), -- 124-135
    (c!"max", stat1 c!"max"),
    (c!"mean", stat1 c!"avg"),
    (c!"median", statOf false fun x => .fn c!"percentile_approx" [x, .py c!"0.5"]), -- 176-186
    (c!"min", stat1 c!"min"),
    (c!"mode", stat1 c!"mode"),
    (c!"percentile", statPerc c!"percentile_approx"),
    (c!"range", statOf false fun x => .bin c!"-" (.fn c!"max" [x]) (.fn c!"min" [x])), -- 254-264
    (c!"stdev", stat1 c!"stddev_samp"),
    (c!"stddev", stat1 c!"stddev_samp"),
    (c!"sum_", stat1 c!"sum"),
    (c!"sumsq", statOf false fun x => .fn c!"sum" [.fn c!"pow" [x, .py c!"2"]]), -- 322-332
    (c!"upperperc", statPerc c!"percentile_approx"),
    (c!"var", stat1 c!"var_samp"),
    (c!"varp", stat1 c!"var_pop"),
    (c!"first", statOf false fun x => .fn c!"first" [x, .py c!"True"]), -- 401-411
    (c!"last", statOf false fun x => .fn c!"last" [x, .py c!"True"]),
    (c!"list_", stat1 c!"collect_list"),
    (c!"values", stat1 c!"collect_set"),
    (c!"earliest", statOf true fun x => .fn c!"first" [x, .py c!"True"]), -- 476-487
    (c!"earliest_time", ⟨[], false, fun _ => some (some (.fn c!"min" [timeCol]))⟩),
    (c!"latest", statOf true fun x => .fn c!"last" [x, .py c!"True"]),
    (c!"latest_time", ⟨[], false, fun _ => some (some (.fn c!"max" [timeCol]))⟩),
    (c!"per_day", statNI), (c!"per_hour", statNI), (c!"per_minute", statNI), (c!"per_second", statNI),
    (c!"rate", statOf true fun x => .bin c!"/"
      (.bin c!"-" (.fn c!"last" [x]) (.fn c!"first" [x]))
      (.bin c!"-" (.fn c!"max" [timeCol]) (.fn c!"min" [timeCol]))), -- 646-661
    -- window functions, opaque, 671-768
    (c!"rate_avg", statOf true fun x => .fn c!"window.rate_avg" [x]),
    (c!"rate_sum", statOf true fun x => .fn c!"window.rate_sum" [x]) ]

/-- a call of `functions.stats.<name>` -/
def statsCall (name : Str) (vs : List RV) : Option RV :=
  match lookupLib name libStats with
  | none => none
  | some f => match bindArgs none f.params vs with
    | none => none
    | some as => (f.body as).map (.agg f.sorts)

/-! ### expressions -/

/-- an operand of a column operator, or an argument of a column method or of `F.f`: a column or a
plain Python value -/
def RV.operand : RV → Option PE
  | .col c => some c
  | .lit code => some (.py code)
  | _ => none

/-- the same for a list -/
def operands : List RV → Option (List PE)
  | [] => some []
  | v :: vs => match v.operand with
    | none => none
    | some c => match operands vs with
      | none => none
      | some cs => some (c :: cs)

/-- a column -/
def RV.column : RV → Option PE
  | .col c => some c
  | _ => none

/-- the binary operators of a column; `a and b` and `a or b` ask for the truth value of a column,
which raises, and `.` is attribute access -/
def colOps : List Str :=
  [c!"==", c!"!=", c!"<", c!"<=", c!">", c!">=", c!"&", c!"|", c!"+", c!"-", c!"*", c!"/", c!"%"]

/-- a binary operator: at least one side is a column.  (Two Python literals are not combined by the
generated code.) -/
def rtBin (op : Str) (l r : RV) : Option RV :=
  if colOps.contains op then
    match l, r with
    | .col a, .col b => some (.col (.bin op a b))
    | .col a, .lit b => some (.col (.bin op a (.py b)))
    | .lit a, .col b => some (.col (.bin op (.py a) b))
    | _, _ => none
  else none

/-- `F.lit(code)`; the names `true` and `false` are not defined in Python -/
def rtLit (code : Str) : Option RV :=
  if code = c!"true" || code = c!"false" then none else some (.col (.lit code))

/-- a method call on a column -/
def rtMethod (c : RV) (f : Str) (vs : List RV) : Option RV :=
  match c with
  | .col c => (operands vs).map fun as => .col (.method c f as)
  | _ => none

/-- a function call: `functions.eval.f`, `functions.stats.f` or `F.f` -/
def rtFn (f : Str) (vs : List RV) : Option RV :=
  match stripPrefix? c!"functions.eval." f with
  | some n => evalCall n vs
  | none => match stripPrefix? c!"functions.stats." f with
    | some n => statsCall n vs
    | none => if f.contains '.' then none else (operands vs).map fun as => .col (.fn f as)

mutual
/-- The value of an expression of the generated code. -/
def evalRt : PE → Option RV
  | .named n => some (.col (.named n))
  | .lit c => rtLit c
  | .py c => some (.lit c)
  | .aliased e n => match evalRt e with
    | some (.col c) => some (.col (.aliased c n))
    | _ => none
  | .not e => match evalRt e with
    | some (.col c) => some (.col (.not c))
    | _ => none
  | .bin op l r => match evalRt l, evalRt r with
    | some a, some b => rtBin op a b
    | _, _ => none
  | .method c f as => match evalRt c, evalRts as with
    | some v, some vs => rtMethod v f vs
    | _, _ => none
  | .fn f as => match evalRts as with
    | some vs => rtFn f vs
    | none => none

/-- arguments -/
def evalRts : List PE → Option (List RV)
  | [] => some []
  | a :: as => match evalRt a, evalRts as with
    | some v, some vs => some (v :: vs)
    | _, _ => none
end

end Verif.Rt
