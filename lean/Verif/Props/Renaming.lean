import Verif.Lemmas.RenamingCmd
import Verif.Props.Program
/-
C109: names of fields are opaque to the translation.
-/
namespace Verif.Props
open Verif Spec Lemmas

/-- Expressions, with and without the runtime library: with other names for the fields the translation is the same column
expression with these names.  The names of functions are kept (columns are named after them). -/
theorem C109_expressions (m : Mode) (ρ : Str → Str) (hk : ∀ n ∈ keptNames, ρ n = n) (e : Expr) (h : opaqueE e = true) (hc : ∀ n ∈ calledIn e, ρ n = n) :
    exprTr m (renE ρ e) = (exprTr m e).map (renP ρ) := ren_expr m hk e h hc

/-- the program a query becomes, or why there is none -/
def programOf (o : Option (Option DF)) : Option Str := o.map fun d => (d.map fun d => d.render.text).getD []

/-- Queries: the program for the query with other names is the program with other names, and there is one exactly if there was one before.  With the
library the names of the other arguments of `commands.stats` and `commands.tstats` have to be kept too (`libraryNames`).
Missing are the commands that `opaqueC` excludes. -/
theorem C109_queries_partial (m : Mode) (x : Ext) (ρ : Str → Str) (hk : ∀ n ∈ keptNames, ρ n = n) (hb : m = .disallow ∨ ∀ n ∈ libraryNames, ρ n = n) (p : Pipeline)
    (h : opaqueCs p = true) (hc : ∀ n ∈ calledInCs p, ρ n = n) :
    ∃ o : Option (Option DF), renderPipeline ⟨m, x⟩ p = programOf o ∧
      renderPipeline ⟨m, x⟩ (renCmds ρ p) = programOf (o.map fun d => d.map (renDF ρ)) := by
  have hr := ren_cmds hk hb x p ⟨1, none⟩ h hc
  refine ⟨(runCmds ⟨m, x⟩ p ⟨1, none⟩).map St.df, ?_, ?_⟩
  · unfold renderPipeline
    cases runCmds ⟨m, x⟩ p ⟨1, none⟩ with
    | none => rfl
    | some s =>
      obtain ⟨n, d⟩ := s
      cases d <;> rfl
  · unfold renderPipeline
    have e : renSt ρ ⟨1, none⟩ = ⟨1, none⟩ := rfl
    rw [e] at hr
    rw [hr]
    cases runCmds ⟨m, x⟩ p ⟨1, none⟩ with
    | none => rfl
    | some s =>
      obtain ⟨n, d⟩ := s
      cases d <;> rfl

/-- Whether there is a program does not depend on the names. -/
theorem C109_accepted_partial (m : Mode) (x : Ext) (ρ : Str → Str) (hk : ∀ n ∈ keptNames, ρ n = n) (hb : m = .disallow ∨ ∀ n ∈ libraryNames, ρ n = n) (p : Pipeline)
    (h : opaqueCs p = true) (hc : ∀ n ∈ calledInCs p, ρ n = n) :
    (renderPipeline ⟨m, x⟩ (renCmds ρ p)).isSome = (renderPipeline ⟨m, x⟩ p).isSome := by
  obtain ⟨o, h1, h2⟩ := C109_queries_partial m x ρ hk hb p h hc
  rw [h1, h2]
  cases o <;> rfl

/-- a renaming of one field -/
def only (a b : Str) (n : Str) : Str := if n = a then b else n

/-- Renaming one field that is not one of the kept names keeps those. -/
theorem only_keeps {a b : Str} {l : List Str} (h : a ∉ l) : ∀ n ∈ l, only a b n = n := by
  intro n hn
  unfold only
  split
  · next e => subst e; exact absurd hn h
  · rfl

/-- A query that meets the conditions, its program, and the program after a renaming. -/
example : (parse c!"index=main | eval z=if(x>y, x, round(y, 2)) | stats sum(z) as s, p(x) by y | sort -s | rename y as x").map (fun p =>
    (opaqueCs p, (calledInCs p).all fun n => n != c!"x",
      keptNames.contains c!"x",
      renderPipeline ⟨.disallow, Tests.ext⟩ (renCmds (only c!"x" c!"number of things") p))) =
    some (true, true, false, some c!"spark.table('main').withColumn('z', F.when((F.col('number of things') > F.col('y')), F.col('number of things')).otherwise(F.round(F.col('y'), 2)),).groupBy([\"y\", ]).agg(F.sum(F.col('z')).alias('s'), F.p(F.col('number of things')).alias('p'),).orderBy(F.col('s').desc(),).limit(10000,).withColumnRenamed('y', 'number of things',)") := by
  decide +kernel

/-- the same with the library -/
example : (parse c!"index=main | eval z=round(x, 2) | fillnull value=0 x | stats sum(z) as x by x").map (fun p =>
    (opaqueCs p, (calledInCs p).all fun n => n != c!"x", libraryNames.all fun n => only c!"x" c!"w" n == n,
      renderPipeline ⟨.allow, Tests.ext⟩ (renCmds (only c!"x" c!"w") p))) =
    some (true, true, true, some c!"df_1 = commands.search(None, index=\"main\")\ndf_2 = commands.eval(df_1, z=functions.eval.round(F.col('w'), F.lit(2)))\ndf_3 = commands.fill_null(df_2, value=\"0\", fields=[ \"w\" ])\ndf_4 = commands.stats(df_3, by=[ F.col('w') ], w=functions.stats.sum(F.col('z')))\ndf_4") := by
  decide +kernel

/-- the same for searches in brackets and `tstats` -/
example : (parse c!"multisearch [index=a | eval x=1] [| tstats sum(x) as s from datamodel=m where x > 2 by x]").map (fun p =>
    (opaqueCs p, (calledInCs p).all fun n => n != c!"x", renderPipeline ⟨.disallow, Tests.ext⟩ (renCmds (only c!"x" c!"w") p))) =
    some (true, true, some c!"spark.table('a').withColumn('w', F.lit(1),).unionByName(spark.table('m').where((F.col('w') > F.lit(2)),).groupBy([\"w\", ]).agg(F.sum(F.col('w')).alias('s'),), allowMissingColumns=True,)") := by
  decide +kernel

/-- Names the parser takes for something else: `t` and `f` are truth values on the right-hand side of an assignment, cannot be
assigned, and cannot be renamed; with `u` all of this works. -/
theorem C109_t_and_f :
    outOf .disallow c!"index=main | eval z=u" = some c!"spark.table('main').withColumn('z', F.col('u'),)" ∧
    outOf .disallow c!"index=main | eval z=t" = some c!"spark.table('main').withColumn('z', F.lit(true),)" ∧
    outOf .disallow c!"index=main | eval z=f" = some c!"spark.table('main').withColumn('z', F.lit(false),)" ∧
    (outOf .disallow c!"index=main | eval u=1").isSome = true ∧ outOf .disallow c!"index=main | eval t=1" = none ∧
    (outOf .disallow c!"index=main | rename u as z").isSome = true ∧ outOf .disallow c!"index=main | rename t as z" = none ∧
    (outOf .disallow c!"index=main | stats count by u").isSome = true ∧ outOf .disallow c!"index=main | stats count by f" = none := by
  decide +kernel

/-- Where the conditions fail the names are not opaque: a word in a search is a text, and so are a field given to `replace` as
the replacement, a field tested against a network, and a field grouped by spans of time; `bin` reads a column `n` and writes a name
built from the name. -/
theorem C109_names_in_texts :
    outOf .disallow c!"index=main x" = some c!"spark.table('main').where(F.col('_raw').ilike(\"%x%\"),)" ∧
    outOf .disallow c!"index=main | eval z=replace(x, y, w)" = some c!"spark.table('main').withColumn('z', F.regexp_replace(F.col('x'), \"y\", \"w\"),)" ∧
    outOf .disallow c!"index=main | where x=10.0.0.0/8" = some c!"spark.table('main').where(F.expr(\"cidr_match('10.0.0.0/8', x)\"),)" ∧
    outOf .disallow c!"index=main | stats count by x span=5m" = some c!"spark.table('main').groupBy([F.window(\"x\", \"5 minutes\"), ]).agg(F.count(F.lit(1)).alias('count'),)" ∧
    outOf .disallow c!"index=main | bin span=5m x" = some c!"spark.table('main').withColumn('x', F.window(F.col('n'), \"5 minutes\"),).withColumn('x', F.col('x.start'),)" := by
  decide +kernel

/-- The condition on the names of functions is needed: the name of a column that `stats` computes with an unknown function is the
name of the function, which the renaming of a field of the same name does not change. -/
theorem C109_function_names : ∃ (ρ : Str → Str) (p : Pipeline), (∀ n ∈ keptNames, ρ n = n) ∧ opaqueCs p = true ∧
    renderPipeline ⟨.disallow, Tests.ext⟩ (renCmds ρ p) ≠
      programOf (((runCmds ⟨.disallow, Tests.ext⟩ p ⟨1, none⟩).map St.df).map fun d => d.map (renDF ρ)) :=
  ⟨only c!"p" c!"q", [.stats ⟨1, false, c!" "⟩ [.call c!"p" [.const (.field c!"x")]] none false], only_keeps (by decide +kernel), by decide +kernel, by decide +kernel⟩

end Verif.Props
