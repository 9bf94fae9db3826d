import Verif.Spec.RowsFragment
/-
Specification: the rows of `tstats` over a data model (SPL reference, tstats command): the statistics of the events of the dataset on which the
condition after WHERE, written as in a search, is true.
-/
namespace Verif.Spec

/-- the parts of `tstats` besides options -/
structure TStats where
  exprs : List Expr
  dataset : Str
  cond : Option Expr
  by_ : Option (List SpField)

/-- The name of the table of a dataset, from what is written after FROM: the data model or a dataset of it, or a node below a dataset. -/
inductive DatasetOf : Option Str → Option Str → Str → Prop
  | model {m : Str} : DatasetOf (some m) none m
  | node {m root rest : Str} : '.' ∉ root → DatasetOf (some (m ++ c!"." ++ root)) (some (root ++ c!"." ++ rest)) (m ++ c!"." ++ root ++ c!"." ++ rest)

/-- The events counted. -/
def TStats.events (S : Sem) (t : TStats) (F : Frame) : Option Frame :=
  match t.cond with
  | none => some F
  | some e => (keepIf (fun r => splSearch S r e) F.rows).map fun rows => ⟨F.cols, rows⟩

/-- The rows of a query that begins with `tstats`: the events of the dataset on which the condition holds, the statistics of these, and the
remaining commands. -/
def splTstats (S : Sem) (A : Aggs) (O : Arrangement) (T : Str → Frame) (t : TStats) (cs : List Command) : Option Frame :=
  (t.events S (T t.dataset)).bind (splRun S A O (.stats ⟨1, false, c!" "⟩ t.exprs t.by_ false :: cs))

/-- The queries whose rows are claimed to be kept: conditions as in a search, functions and fields as in `stats`. -/
def fitsTstats (colsOf : Str → List Str) (t : TStats) (cs : List Command) : Option (Bool × List Str) :=
  if goodCols (colsOf t.dataset) && Plain '\'' t.dataset && t.cond.all (fun e => SearchFrag true e && readsOnly (colsOf t.dataset) e) then
    fitsCmds false (colsOf t.dataset) (.stats ⟨1, false, c!" "⟩ t.exprs t.by_ false :: cs)
  else none

/-- The rows are definite: the comparisons under NOT are decided on every event of the dataset, and what the commands need the events to be like. -/
def DefiniteTstats (S : Sem) (A : Aggs) (O : Arrangement) (T : Str → Frame) (t : TStats) (cs : List Command) : Prop :=
  (∀ e, t.cond = some e → ∀ r ∈ (T t.dataset).rows, NotsDecided S r e = true) ∧
    ∀ F, t.events S (T t.dataset) = some F → definiteCmds S A O (.stats ⟨1, false, c!" "⟩ t.exprs t.by_ false :: cs) F

end Verif.Spec
