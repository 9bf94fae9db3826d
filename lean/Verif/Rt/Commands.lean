import Verif.Rt.Library
import Verif.Tr.Commands
import Verif.Spec.Tree
/-
The commands of the Python runtime library: /repo/python/spl_transpiler/runtime/commands/*.py and
runtime/config.py.

A data frame is represented by the PySpark expression that builds it, without calls of the library:
`runDF` replaces every library call of a generated program by what the call builds.  `none` is a
raised exception.  Binding of keyword arguments: an unknown keyword of a function without `**kwargs`,
a keyword that is also bound positionally, a repeated keyword, and a keyword that is no (ASCII)
identifier of Python are errors.
-/
namespace Verif.Rt
open Verif

/-- What a program run finds outside: the table lookup function of the settings (config.py:98-105)
and the column types of a data frame (`df.dtypes`). -/
structure World where
  lookup : List (Str × RV) → Option DF
  types : DF → List (Str × Str)

/-- values of command arguments -/
inductive PV
  | val (v : RV)
  | dict (kvs : List (Str × RV))
  | list (vs : List RV)

/-- entries of a dictionary -/
def evalKvs : List (Str × PE) → Option (List (Str × RV))
  | [] => some []
  | (k, e) :: rest => match evalRt e, evalKvs rest with
    | some v, some kvs => some ((k, v) :: kvs)
    | _, _ => none

/-- value of an argument -/
def reVal : RE → Option PV
  | .expr e => (evalRt e).map .val
  | .dict kvs => (evalKvs kvs).map .dict
  | .list es => (evalRts es).map .list

/-- values of the keyword arguments -/
def kwVals : List (Str × RE) → Option (List (Str × PV))
  | [] => some []
  | (k, e) :: rest => match reVal e, kwVals rest with
    | some v, some kvs => some ((k, v) :: kvs)
    | _, _ => none

/-- values of the positional arguments -/
def argVals : List RE → Option (List PV)
  | [] => some []
  | e :: es => match reVal e, argVals es with
    | some v, some vs => some (v :: vs)
    | _, _ => none

/-- A parameter annotated `Expr`, then `to_pyspark_expr()`: a column, or `none` when the conversion
raises or when the result is no column (using it raises).  A list becomes a raw `Expr` that is no
column, and a dictionary without the keys `kind` and `value` is rejected. -/
def exprCol : PV → Option PE
  | .val v => match v.toExpr with
    | some (some c) => some c
    | _ => none
  | _ => none

/-- look up a keyword -/
def kwGet (k : Str) : List (Str × PV) → Option PV
  | [] => none
  | (n, v) :: rest => if n = k then some v else kwGet k rest

/-- Names that can stand before the `=` of a keyword argument.  Simplification: Python also allows
non-ASCII letters. -/
def kwNameOk (n : Str) : Bool := Spec.isIdent n && !(Spec.pyConsts.contains n)

/-- every keyword is an identifier and none is repeated -/
def distinct : List (Str × PV) → Bool
  | [] => true
  | (k, _) :: rest => !(rest.any fun p => p.1 == k) && (kwNameOk k && distinct rest)

/-- the keywords that fall into `**kwargs` -/
def others (named : List Str) (kw : List (Str × PV)) : List (Str × PV) :=
  kw.filter fun p => !(named.contains p.1)

/-! ### `eval`, commands/eval.py -/

/-- the loop of eval.py:8-9 -/
def evalCols : List (Str × PV) → DF → Option DF
  | [], d => some d
  | (n, v) :: rest, d => match exprCol v with
    | none => none
    | some c => evalCols rest (.withColumn d c n)

/-- eval.py:6-10; `df` must be a data frame -/
def cmdEval (src : Option DF) (args : List PV) (kw : List (Str × PV)) : Option DF :=
  match src with
  | none => none
  | some d =>
    if args.isEmpty && (kwGet c!"df" kw).isNone then evalCols kw d else none

/-! ### `search`, commands/search.py -/

/-- the keyword-only parameters, search.py:13-21 -/
def searchParams : List Str :=
  [c!"index", c!"source", c!"source_type", c!"host", c!"host_tag", c!"event_type", c!"event_type_tag",
    c!"saved_splunk", c!"splunk_server"]

/-- search.py:38-39 -/
def posConds : List PV → Option (List PE)
  | [] => some []
  | v :: vs => match exprCol v, posConds vs with
    | some c, some cs => some (c :: cs)
    | _, _ => none

/-- search.py:40-41 -/
def kwConds : List (Str × PV) → Option (List PE)
  | [] => some []
  | (f, v) :: rest => match exprCol v, kwConds rest with
    | some c, some cs => some (.bin c!"==" (.named f) c :: cs)
    | _, _ => none

/-- search.py:43 -/
def allOf (cs : List PE) : PE := cs.foldl (fun a c => .bin c!"&" a c) (.lit c!"True")

/-- the values of the keyword-only parameters that are given -/
def given : List (Str × PV) → Option (List (Str × RV))
  | [] => some []
  | (k, .val v) :: rest => (given rest).map ((k, v) :: ·)
  | _ :: _ => none

/-- search.py:24-35 -/
def searchSource (W : World) (src : Option DF) (kw : List (Str × PV)) : Option DF :=
  match src with
  | some d => some d
  | none => match given (kw.filter fun p => searchParams.contains p.1) with
    | none => none
    | some ps => W.lookup ps

/-- search.py:9-45 -/
def cmdSearch (W : World) (src : Option DF) (args : List PV) (kw : List (Str × PV)) : Option DF :=
  if (kwGet c!"df" kw).isNone then
    match searchSource W src kw, posConds args, kwConds (others searchParams kw) with
    | some d, some ps, some ks => some (.where_ d (allOf (ps ++ ks)))
    | _, _, _ => none
  else none

/-! ### `stats`, commands/stats.py -/

/-- stats.py:15-17: the frame, sorted where a function asks for it, and the labelled aggregates -/
def statCols : List (Str × PV) → DF → Option (DF × List PE)
  | [], d => some (d, [])
  | (label, .val (.agg sorts (some c))) :: rest, d =>
    match statCols rest (if sorts then .orderBy d [.method timeCol c!"asc" []] else d) with
    | none => none
    | some (d', cs) => some (d', .aliased c label :: cs)
  | _ :: _, _ => none

/-- a list of `Expr` -/
def listCols : List RV → Option (List PE)
  | [] => some []
  | v :: vs => match exprCol (.val v), listCols vs with
    | some c, some cs => some (c :: cs)
    | _, _ => none

/-- the parameter `by: list[Expr] = ()` -/
def byCols : Option PV → Option (List PE)
  | none => some []
  | some (.list vs) => listCols vs
  | some _ => none

/-- stats.py:7-22; `agg` needs at least one expression -/
def cmdStats (src : Option DF) (args : List PV) (kw : List (Str × PV)) : Option DF :=
  match src with
  | none => none
  | some d =>
    if args.isEmpty && (kwGet c!"df" kw).isNone then
      match statCols (others [c!"by"] kw) d, byCols (kwGet c!"by" kw) with
      | some (d', aggs), some ks => if aggs.isEmpty then none else some (.agg (.groupBy d' (ks.map .col)) aggs)
      | _, _ => none
    else none

/-! ### `fill_null`, commands/fill_null.py -/

/-- a list of `str` -/
def listStrs : List RV → Option (List Str)
  | [] => some []
  | .lit code :: vs => match strOf code, listStrs vs with
    | some s, some ss => some (s :: ss)
    | _, _ => none
  | _ :: _ => none

/-- the type of a column -/
def typeOf (f : Str) : List (Str × Str) → Option Str
  | [] => none
  | (n, t) :: rest => if n = f then some t else typeOf f rest

/-- fill_null.py:15-21; an unknown field is a `KeyError` -/
def fillCols (types : List (Str × Str)) (code : Str) : List Str → DF → Option DF
  | [], d => some d
  | f :: fs, d => match typeOf f types with
    | none => none
    | some t => fillCols types code fs (.withColumn d
        (.method (.fn c!"when" [.method (.named f) c!"isNull" [], .method (.lit code) c!"cast" [pyStr t]])
          c!"otherwise" [.named f]) f)

/-- the parameter `fields: list[str] | None = None`; the default is every column -/
def fillFields (types : List (Str × Str)) : Option PV → Option (List Str)
  | none => some (types.map (·.1))
  | some (.val (.lit code)) => if code = c!"None" then some (types.map (·.1)) else none
  | some (.list vs) => listStrs vs
  | some _ => none

/-- fill_null.py:6-23; with `df=None` the attribute `dtypes` is missing -/
def cmdFillNull (W : World) (src : Option DF) (args : List PV) (kw : List (Str × PV)) : Option DF :=
  match src with
  | none => none
  | some d =>
    if args.isEmpty && (others [c!"value", c!"fields"] kw).isEmpty then
      match kwGet c!"value" kw with
      | some (.val (.lit code)) =>
        if (strOf code).isSome then
          match fillFields (W.types d) (kwGet c!"fields" kw) with
          | none => none
          | some fs => fillCols (W.types d) code fs d
        else none
      | _ => none
    else none

/-! ### `data_model`, commands/data_model.py -/

/-- `str.split(".")` and `".".join`, data_model.py:39-41 -/
def modelTable (model : Str) (node : Option Str) : Str :=
  joinWith c!"." (splitOnC '.' model ++ (splitOnC '.' (node.getD [])).drop 1)

/-- data_model.py:10-44.  The first positional argument (`None` or the data frame so far) is bound to
`data_model_name: str`; there is no parameter for the data frame. -/
def cmdDataModel (_src : Option DF) (_args : List PV) (_kw : List (Str × PV)) : Option DF := none

/-! ### `tstats`, commands/tstats.py -/

/-- a parameter annotated `str` -/
def strVal : RV → Option Str
  | .lit code => strOf code
  | _ => none

/-- entry of a dictionary -/
def dictGet (k : Str) : List (Str × RV) → Option RV
  | [] => none
  | (n, v) :: rest => if n = k then some v else dictGet k rest

/-- a parameter annotated `str | None = None` -/
def optStr : Option RV → Option (Option Str)
  | none => some none
  | some (.lit code) => if code = c!"None" then some none else (strOf code).map some
  | some _ => none

/-- `DataModelSpecifier`, tstats.py:11-13 -/
def specifier : PV → Option (Str × Option Str)
  | .dict kvs => match (dictGet c!"datamodel" kvs).bind strVal, optStr (dictGet c!"nodename" kvs) with
    | some m, some n => some (m, n)
    | _, _ => none
  | _ => none

/-- tstats.py:48-49, with every column filled -/
def fillStep (W : World) : Option PV → DF → Option DF
  | none, d => some d
  | some v, d => cmdFillNull W (some d) [] [(c!"value", v)]

/-- tstats.py:51-52 -/
def whereStepRt : Option PV → DF → Option DF
  | none, d => some d
  | some v, d => (exprCol v).map (.where_ d)

/-- tstats.py:24-56, for a call with `from_` (every generated call has it): with a data frame it
raises, tstats.py:45-46 -/
def cmdTstats (W : World) (src : Option DF) (args : List PV) (kw : List (Str × PV)) : Option DF :=
  match src with
  | some _ => none
  | none =>
    if args.isEmpty && (kwGet c!"df" kw).isNone then
      match (kwGet c!"from_" kw).bind specifier with
      | none => none
      | some (m, n) =>
        match W.lookup [(c!"index", .lit (c!"\"" ++ modelTable m n ++ c!"\""))] with
        | none => none
        | some d => match fillStep W (kwGet c!"fill_null_value" kw) d with
          | none => none
          | some d => match whereStepRt (kwGet c!"where" kw) d with
            | none => none
            | some d => cmdStats (some d) [] (others [c!"from_", c!"fill_null_value", c!"where"] kw)
    else none

/-! ### programs -/

/-- `commands.<func>(src, args, kwargs)`; these six exist, commands/__init__.py:8-15 -/
def command (W : World) (src : Option DF) (func : Str) (args : List RE) (kwargs : List (Str × RE)) :
    Option DF :=
  match argVals args, kwVals kwargs with
  | some as, some kw =>
    if distinct kw then
      if func = c!"eval" then cmdEval src as kw
      else if func = c!"search" then cmdSearch W src as kw
      else if func = c!"stats" then cmdStats src as kw
      else if func = c!"fill_null" then cmdFillNull W src as kw
      else if func = c!"data_model" then cmdDataModel src as kw
      else if func = c!"tstats" then cmdTstats W src as kw
      else none
    else none
  | _, _ => none

/-- an argument of a data frame method that must be a column -/
def colArg (e : PE) : Option PE := (evalRt e).bind RV.column

/-- the same for a list -/
def colArgs : List PE → Option (List PE)
  | [] => some []
  | e :: es => match colArg e, colArgs es with
    | some c, some cs => some (c :: cs)
    | _, _ => none

/-- grouping keys -/
def keyArgs : List CN → Option (List CN)
  | [] => some []
  | .name n :: ks => (keyArgs ks).map (.name n :: ·)
  | .col c :: ks => match colArg c, keyArgs ks with
    | some c, some ks => some (.col c :: ks)
    | _, _ => none

/-- The data frame a generated program computes, as a PySpark expression without the library. -/
def runDF (W : World) : DF → Option DF
  | .source n => some (.source n)
  | .rawSource c => some (.rawSource c)
  | .runtimeRoot _ f args kw => command W none f args kw
  | .runtime _ src f args kw => match runDF W src with
    | none => none
    | some d => command W (some d) f args kw
  | .named src _ => runDF W src
  | .select src cols => match runDF W src, colArgs cols with
    | some d, some cs => some (.select d cs)
    | _, _ => none
  | .where_ src c => match runDF W src, colArg c with
    | some d, some c => some (.where_ d c)
    | _, _ => none
  | .groupBy src ks => match runDF W src, keyArgs ks with
    | some d, some ks => some (.groupBy d ks)
    | _, _ => none
  | .agg src cols => match runDF W src, colArgs cols with
    | some d, some cs => some (.agg d cs)
    | _, _ => none
  | .withColumn src c n => match runDF W src, colArg c with
    | some d, some c => some (.withColumn d c n)
    | _, _ => none
  | .withColumnRenamed src o n => (runDF W src).map fun d => .withColumnRenamed d o n
  | .orderBy src cols => match runDF W src, colArgs cols with
    | some d, some cs => some (.orderBy d cs)
    | _, _ => none
  | .unionByName src other => match runDF W src, runDF W other with
    | some d, some e => some (.unionByName d e)
    | _, _ => none
  | .limit src n => (runDF W src).map fun d => .limit d n
  | .tail src n => (runDF W src).map fun d => .tail d n
  | .join src other c ty => match runDF W src, runDF W other, colArg c with
    | some d, some e, some c => some (.join d e c ty)
    | _, _, _ => none
  | .alias src n => (runDF W src).map fun d => .alias d n
  | .arbitraryMethod src m ps => match runDF W src, (evalRts ps).bind operands with
    | some d, some as => some (.arbitraryMethod d m as)
    | _, _ => none

/-! ### the default table lookup, config.py:9-79 -/

/-- the value of a keyword as a text; a column has no truth value (config.py:64,66) -/
def textOf (k : Str) (ps : List (Str × RV)) : Option (Option Str) :=
  match dictGet k ps with
  | none => some none
  | some v => (strVal v).map some

/-- the filters of config.py:28-62: column and keyword -/
def lookupFilters : List (Str × Str) :=
  [ (c!"_source", c!"source"), (c!"_sourcetype", c!"source_type"), (c!"_host", c!"host"),
    (c!"_hosttag", c!"host_tag"), (c!"_eventtype", c!"event_type"), (c!"_eventtypetag", c!"event_type_tag"),
    (c!"_savedsearch", c!"saved_splunk"), (c!"_splunk_server", c!"splunk_server") ]

/-- config.py:75-77 -/
def applyFilters (ps : List (Str × RV)) : List (Str × Str) → DF → DF
  | [], d => d
  | (col, k) :: rest, d => applyFilters ps rest (match (dictGet k ps).bind RV.operand with
    | some v => .where_ d (.bin c!"==" (.named col) v)
    | none => d)

/-- a text is true when it is not empty -/
def truthy : Option Str → Bool
  | some s => !s.isEmpty
  | none => false

/-- the non-empty ones among optional texts -/
def presentTexts : List (Option Str) → List Str
  | [] => []
  | some s :: rest => if s.isEmpty then presentTexts rest else s :: presentTexts rest
  | none :: rest => presentTexts rest

/-- `default_table_lookup`, config.py:9-79 -/
def defaultLookup (ps : List (Str × RV)) : Option DF :=
  match textOf c!"index" ps, textOf c!"source" ps, textOf c!"source_type" ps with
  | some index, some source, some sourceType =>
    if truthy index then some (applyFilters ps lookupFilters (.source (index.getD [])))
    else if truthy source || truthy sourceType then
      some (applyFilters ps (lookupFilters.drop 2)
        (.source (joinWith c!"_" (presentTexts [source, sourceType, some c!"silver"]))))
    else none
  | _, _, _ => none

end Verif.Rt
