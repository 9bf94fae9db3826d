import Verif.Py.Tree
/-
What a generated data-frame expression means: a small relational semantics of the PySpark methods
the transpiler emits.  Everything about Spark that the properties do not depend on (values of
columns, truth of conditions, sorting, grouping, joining, the content of tables, ...) is a parameter,
so that a theorem about `meaning` holds whatever these are.
-/
namespace Verif.Spec
open Verif

/-- a row: column names with their values, in order -/
abbrev Row (V : Type) := List (Str × V)

/-- a table: rows in order -/
abbrev Table (V : Type) := List (Row V)

/-- The parts of Spark that are left open. -/
structure Spark (V : Type) where
  /-- the value read from a column that a row does not have -/
  null : V
  /-- `spark.table(name)` -/
  table : Str → Table V
  /-- a source given as code -/
  raw : Str → Table V
  /-- value of a column expression other than a plain column -/
  value : PE → Row V → V
  /-- truth of a filter condition -/
  holds : PE → Row V → Bool
  /-- name Spark gives to a selected expression without alias -/
  autoName : PE → Str
  /-- `orderBy` -/
  sort : List PE → Table V → Table V
  /-- `groupBy(..).agg(..)` -/
  aggregate : List CN → List PE → Table V → Table V
  /-- `join` -/
  joined : PE → Str → Table V → Table V → Table V
  /-- `unionByName(.., allowMissingColumns=True)` -/
  union : Table V → Table V → Table V
  /-- any other method -/
  method : Str → List PE → Table V → Table V
  /-- a call of the runtime library -/
  command : Str → Option (Table V) → List RE → List (Str × RE) → Table V

variable {V : Type}

/-- the value of a column of a row -/
def cell (null : V) (r : Row V) (n : Str) : V :=
  match r with
  | [] => null
  | (m, v) :: r => if m = n then v else cell null r n

/-- `withColumn`: replace the value of column `n`, or add the column at the end -/
def setCol (n : Str) (v : V) : Row V → Row V
  | [] => [(n, v)]
  | (m, w) :: r => if m = n then (m, v) :: r else (m, w) :: setCol n v r

/-- `withColumnRenamed` -/
def renameCol (old new : Str) (r : Row V) : Row V :=
  r.map fun c => (if c.1 = old then new else c.1, c.2)

/-- value of a column expression -/
def Spark.val (S : Spark V) (e : PE) (r : Row V) : V :=
  match e with
  | .named n => cell S.null r n
  | e => S.value e r

/-- one output column of `select` -/
def Spark.pick (S : Spark V) (e : PE) (r : Row V) : Str × V :=
  match e with
  | .aliased c n => (n, S.val c r)
  | .named n => (n, cell S.null r n)
  | e => (S.autoName e, S.val e r)

/-- The table a data-frame expression denotes. -/
def Spark.meaning (S : Spark V) : DF → Table V
  | .source n => S.table n
  | .rawSource c => S.raw c
  | .runtimeRoot _ f args kwargs => S.command f none args kwargs
  | .runtime _ src f args kwargs => S.command f (some (S.meaning src)) args kwargs
  | .named src _ => S.meaning src
  | .select src cols => (S.meaning src).map fun r => cols.map fun c => S.pick c r
  | .where_ src cond => (S.meaning src).filter (S.holds cond)
  | .groupBy src _ => S.meaning src
  | .agg (.groupBy src ks) cols => S.aggregate ks cols (S.meaning src)
  | .agg src cols => S.aggregate [] cols (S.meaning src)
  | .withColumn src c n => (S.meaning src).map fun r => setCol n (S.val c r) r
  | .withColumnRenamed src o n => (S.meaning src).map (renameCol o n)
  | .orderBy src cols => S.sort cols (S.meaning src)
  | .unionByName src other => S.union (S.meaning src) (S.meaning other)
  | .limit src n => (S.meaning src).take n
  | .tail src n => (S.meaning src).drop ((S.meaning src).length - n)
  | .join src other c ty => S.joined c ty (S.meaning src) (S.meaning other)
  | .alias src _ => S.meaning src
  | .arbitraryMethod src m ps => S.method m ps (S.meaning src)

/-- What is assumed of Spark when the two forms of a query are compared: a filter keeps the rows that
satisfy both parts of `a & b`, and all rows for `F.lit(True)`; `groupBy("x")` is `groupBy(F.col("x"))`. -/
structure Spark.Lawful (S : Spark V) : Prop where
  and_ : ∀ a b r, S.holds (.bin c!"&" a b) r = (S.holds a r && S.holds b r)
  true_ : ∀ r, S.holds (.lit c!"True") r = true
  keys : ∀ ks cs t, S.aggregate (ks.map fun k => .col k.toPE) cs t = S.aggregate ks cs t

/-- Two frames have the same rows, whatever the parts of Spark are that are left open. -/
def SameRows (d e : DF) : Prop := ∀ (V : Type) (S : Spark V), S.Lawful → S.meaning d = S.meaning e

/-- an interpretation in which every table is the given one and nothing else matters -/
def flat (t : Table Nat) : Spark Nat where
  null := 0
  table _ := t
  raw _ := t
  value _ _ := 0
  holds _ _ := true
  autoName _ := []
  sort _ t := t
  aggregate _ _ t := t
  joined _ _ a b := a ++ b
  union a b := a ++ b
  method _ _ t := t
  command _ t _ _ := t.getD []

end Verif.Spec
