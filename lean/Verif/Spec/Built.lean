import Verif.Spec.Rows
/-
Specification: the rows of a data frame that a running program has built.
-/
namespace Verif.Spec

/-- The rows of a data frame, given the tables of the session: those of the chain of calls that builds it. -/
def builtRows (S : Sem) (A : Aggs) (O : Arrangement) (T : Str → Frame) (d : DF) : Option Frame :=
  match progTree d with
  | some ⟨[], e⟩ => frameEval S A O T e
  | _ => none

end Verif.Spec
