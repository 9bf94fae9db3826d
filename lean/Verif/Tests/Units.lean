import Verif.Spl.Macros
import Verif.Tests.Repo
import Verif.Tests.Parser
/-
The remaining unit tests of the repository about code that is modelled: macro detection, the
translation of expressions, `into_search_expr`, the splitting of search conditions, the eval
functions and the renderer.  As in `Tests/Parser.lean` the expected values are those of the Rust
tests.  Not included: `get_groups` (regex_utils.rs:106-124, needs the regular expression parser,
which is a parameter of the model), `filename` (parser.rs:1671, not used by the program) and
`format_python_code` (format_python.rs:67, an external formatter).
-/
namespace Verif.Tests.Units
open Verif Verif.Tests

/-! ### Macro detection -/

/-- spl/macros.rs:61-79 -/
example : detectMacros c!"`foo`" = some ([([], ⟨c!"foo", []⟩)], []) := by decide +kernel

/-- spl/macros.rs:83-105 -/
example : detectMacros c!"`foo(bar, 1, \"s\")`" =
    some ([([], ⟨c!"foo", [(none, c!"bar"), (none, c!"1"), (none, c!"\"s\"")]⟩)], []) := by
  decide +kernel

/-- spl/macros.rs:109-130 -/
example : detectMacros c!"`foo(foo=bar, baz=1)`" =
    some ([([], ⟨c!"foo", [(some c!"foo", c!"bar"), (some c!"baz", c!"1")]⟩)], []) := by
  decide +kernel

/-- spl/macros.rs:134-165 -/
example : detectMacros c!"index=main | `foo(bar, 1, \"s\")` x=`f` y=3" =
    some ([(c!"index=main | ", ⟨c!"foo", [(none, c!"bar"), (none, c!"1"), (none, c!"\"s\"")]⟩),
      (c!" x=", ⟨c!"f", []⟩)], c!" y=3") := by
  decide +kernel

/-- spl/macros.rs:169-187 -/
example : detectMacros c!"`foo(\"`\")`" = some ([([], ⟨c!"foo", [(none, c!"\"`\"")]⟩)], []) := by
  decide +kernel

/-! ### Expressions -/

private def F (s : Str) : Expr := .const (.field s)
private def S (s : Str) : Expr := .const (.str s)
private def W (s : Str) : Expr := .const (.wildcard s)
private def N (n : Int) : Expr := .const (.int n)

/-- pyspark/transpiler/mod.rs, `test_field` -/
example : exprTr .disallow (F c!"x") = some (.named c!"x") := rfl

/-- pyspark/transpiler/mod.rs, `test_binary_op` -/
example : exprTr .disallow (.binary (F c!"x") c!">" (F c!"y")) =
    some (.bin c!">" (.named c!"x") (.named c!"y")) := rfl

/-- pyspark/transpiler/mod.rs, `test_field_in_0` -/
example : exprTr .disallow (.fieldIn c!"junk" []) = some (.lit c!"True") := rfl

/-- pyspark/transpiler/mod.rs, `test_field_in_1_wildcard` -/
example : exprTr .disallow (.fieldIn c!"c" [W c!"abc*"]) =
    some (.method (.named c!"c") c!"like" [pyStr c!"abc%"]) := rfl

/-- pyspark/transpiler/mod.rs, `test_field_in_1_exact` -/
example : exprTr .disallow (.fieldIn c!"c" [S c!"abc"]) =
    some (.bin c!"==" (.named c!"c") (pyStr c!"abc")) := rfl

/-- pyspark/transpiler/mod.rs, `test_field_in_2` -/
example : exprTr .disallow (.fieldIn c!"c" [S c!"abc", W c!"abc*"]) =
    some (.bin c!"|" (.bin c!"==" (.named c!"c") (pyStr c!"abc"))
      (.method (.named c!"c") c!"like" [pyStr c!"abc%"])) := rfl

/-- pyspark/transpiler/mod.rs, `test_field_in_3` -/
example : exprTr .disallow (.fieldIn c!"c" [S c!"abc", W c!"abc*", S c!"xyz"]) =
    some (.bin c!"|" (.bin c!"|" (.bin c!"==" (.named c!"c") (pyStr c!"abc"))
      (.method (.named c!"c") c!"like" [pyStr c!"abc%"]))
      (.bin c!"==" (.named c!"c") (pyStr c!"xyz"))) := rfl

/-! ### `into_search_expr`, pyspark/transpiler/expr.rs:244-263 -/

private def raw (s : Str) : PE := .method (.named c!"_raw") c!"ilike" [pyStr s]

example : intoSearch (.bin c!"==" (.named c!"A") (pyInt 5)) =
    .bin c!"==" (.named c!"A") (pyInt 5) := rfl

example : intoSearch (.named c!"A") = raw c!"%A%" := rfl

example : intoSearch (.lit c!"\"A\"") = raw c!"%A%" := rfl

example : intoSearch (.bin c!"&" (.named c!"A") (.lit c!"\"B\"")) =
    .bin c!"&" (raw c!"%A%") (raw c!"%B%") := rfl

/-! ### Splitting of search conditions, commands/cmd_search/pyspark.rs:212-293 -/

/-- `check_split_results`, without the sorting: the indices are in order of appearance -/
private def split (e : Expr) : Option (Option PE × List Str) :=
  (splitConditions true e).bind fun x => match x.1 with
    | none => some (none, x.2)
    | some c => (exprTr .disallow c).map fun p => (some p, x.2)

example : split (.binary (F c!"index") c!"=" (F c!"lol")) = some (none, [c!"lol"]) := rfl

example : split (.binary (F c!"x") c!"=" (N 2)) =
    some (some (.bin c!"==" (.named c!"x") (.lit c!"2")), []) := rfl

example : split (.binary (.binary (F c!"x") c!"=" (N 2)) c!"AND"
      (.binary (F c!"index") c!"=" (F c!"lol"))) =
    some (some (.bin c!"==" (.named c!"x") (.lit c!"2")), [c!"lol"]) := rfl

example : split (.binary (.binary (.binary (.binary (F c!"index") c!"=" (F c!"lol")) c!"AND"
      (.binary (F c!"x") c!"=" (N 2))) c!"AND" (.binary (F c!"index") c!"=" (F c!"two"))) c!"AND"
      (.binary (F c!"y") c!">" (N 3))) =
    some (some (.bin c!"&" (.bin c!"==" (.named c!"x") (.lit c!"2"))
      (.bin c!">" (.named c!"y") (.lit c!"3"))), [c!"lol", c!"two"]) := rfl

/-! ### Eval functions, functions/eval_fns.rs -/

/-- `test_simple_function_max` -/
example : exprTr .disallow (.call c!"max" [F c!"a", F c!"b"]) =
    some (.aliased (.fn c!"greatest" [.named c!"a", .named c!"b"]) c!"max") := rfl

/-- `test_graceful_failure_for_missing_args` -/
example : exprTr .disallow (.call c!"sin" []) = none := rfl

/-- the translation of a parsed call, without its alias -/
private def called (m : Mode) (s : Str) : Option PE :=
  (Spl.callExpr.run Spl.fix s).bind fun x => (exprTr m x.2).map PE.unalias

/-- its text up to layout -/
private def calledText (m : Mode) (s expected : Str) : Bool :=
  match called m s with
  | some p => strip (renderE p) == strip expected
  | none => false

/-- `test_mvindex_split`; the expected tree is written out as text -/
example : calledText .disallow c!"mvindex(split(mvindex(BoundaryRanges, -1), \":\"), 0)"
    c!"F.get(F.split(F.get(F.col('BoundaryRanges'), -1), ':'), 0)" = true := by decide +kernel

/-- `test_mvzip_1` -/
example : calledText .disallow c!"mvzip(x,y)"
    c!"F.zip_with(F.col('x'), F.col('y'), lambda left_, right_: F.concat_ws(r',', left_, right_))" =
    true := by decide +kernel

/-- `test_mvzip_2` -/
example : calledText .disallow c!"mvzip(x,y,\"_\")"
    c!"F.zip_with(F.col('x'), F.col('y'), lambda left_, right_: F.concat_ws(r'_', left_, right_))" =
    true := by decide +kernel

/-- `test_relative_time_1` -/
example : calledText .disallow c!"relative_time(now(), \"-70m@m\")"
    c!"F.date_trunc(\"minute\", (F.to_timestamp(F.current_timestamp()) + F.expr(\"INTERVAL -70 MINUTES\")))" =
    true := by decide +kernel

/-- `test_cidrmatch` -/
example : calledText .require c!"cidrmatch(\"123.132.32.0/25\",ip)"
    c!"functions.eval.cidrmatch(\"123.132.32.0/25\", F.col(\"ip\"))" = true := by decide +kernel

/-! ### Renderer, pyspark/ast.rs:1008-1093 -/

private def writes (e : PE) (expected : Str) : Bool := strip (renderC e) == strip expected
private def dfWrites (d : DF) (expected : Str) : Bool := strip d.render.text == strip expected

example : writes (.named c!"x") c!"F.col(\"x\")" = true := by decide +kernel
example : writes (.lit c!"42") c!"F.lit(42)" = true := by decide +kernel
example : writes (.mkMethod (.lit c!"42") c!"sqrt" []) c!"F.lit(42).sqrt()" = true := by
  decide +kernel
example : writes (.lit c!"\"xyz\"") c!"F.lit(\"xyz\")" = true := by decide +kernel
example : writes (.fn c!"sqrt" [.lit c!"42"]) c!"F.sqrt(F.lit(42))" = true := by decide +kernel
example : writes ((PE.named c!"x").withAlias c!"y") c!"F.col(\"x\").alias(\"y\")" = true := by
  decide +kernel
example : writes (.mkBin (.named c!"x") c!"+" (.lit c!"42")) c!"F.col(\"x\") + F.lit(42)" =
    true := by decide +kernel
example : writes (.mkNot (.named c!"x")) c!"~F.col(\"x\")" = true := by decide +kernel

/-- `test_dataframe` -/
example : dfWrites ((DF.source c!"main").mkWhere (.named c!"x"))
    c!"spark.table(\"main\").where(F.col(\"x\"))" = true := by decide +kernel

/-- `test_with_aliased_column` -/
example : dfWrites ((DF.source c!"main").mkWithColumn c!"final_name"
      ((PE.named c!"orig_name").withAlias c!"alias_name"))
    c!"spark.table(\"main\").withColumn(\"final_name\", F.col(\"orig_name\"))" = true := by
  decide +kernel

/-- `test_named` -/
example : dfWrites (.named ((DF.source c!"main").mkWithColumn c!"final_name"
      ((PE.named c!"orig_name").withAlias c!"alias_name")) c!"prev")
    c!"prev = spark.table(\"main\").withColumn(\"final_name\", F.col(\"orig_name\"))\nprev" = true := by
  decide +kernel

/-- `test_unique_ids` -/
example : dfWrites (.runtime c!"df_2" (.runtimeRoot c!"df_1" c!"search"
      [.expr (.mkBin (.named c!"x") c!"==" (.lit c!"3"))] []) c!"eval" []
      [(c!"y", .expr (.fn c!"length" [.named c!"x"]))])
    c!"df_1 = commands.search(None, (F.col('x') == F.lit(3)))\ndf_2 = commands.eval(df_1, y=F.length(F.col('x')))\ndf_2" =
    true := by decide +kernel

/-! ### Parser tests that compare two parsers -/

/-- commands/cmd_s_path/spl.rs:100: `command` finds the `spath` parser -/
example : (match Spl.spath.run Spl.fix c!"spath output=myfield path=vendorProductSet.product.desc" with
    | some (_, v) => Parser.gives Spl.command Spl.fix
      c!"spath output=myfield path=vendorProductSet.product.desc" [] (eqC v)
    | none => false) = true := by decide +kernel

/-- commands/cmd_map/spl.rs:251-254: `command` finds the `map` parser -/
example : (match Spl.map_.run Spl.fix c!"map search=\"search index=dummy host=$host_var$ | eval this=\\\"that\\\" | dedup 10 keepevents=true keepempty=false consecutive=true host ip port\"" with
    | some (t, v) => Parser.gives Spl.command Spl.fix
      c!"map search=\"search index=dummy host=$host_var$ | eval this=\\\"that\\\" | dedup 10 keepevents=true keepempty=false consecutive=true host ip port\"" t (eqC v)
    | none => false) = true := by decide +kernel

/-- commands/cmd_map/spl.rs:255-264 -/
example : Parser.gives Spl.command Spl.fix
    c!"map search=\"search index=dummy host=$host_var$ | eval this=\\\"that\\\" | dedup 10 keepevents=true keepempty=false consecutive=true host ip port\"" []
    (eqC · (.map [.search (.binary (.binary (F c!"index") c!"=" (F c!"dummy")) c!"AND"
        (.binary (F c!"host") c!"=" (.const (.variable c!"host_var")))),
      .eval [(c!"this", S c!"that")],
      .dedup 10 [c!"host", c!"ip", c!"port"] true false true [(some c!"+", c!"_no")]] 10)) = true := by
  decide +kernel

end Verif.Tests.Units
