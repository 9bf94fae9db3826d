import Verif.Spec.RowsFragment
/-
Specification: the events of several searches together (`multisearch`).
-/
namespace Verif.Spec

/-- The events of all the results; a field one of the results does not have is missing in its events.  The order is
left open: `multisearch` orders the events by time. -/
def splTogether (Fs : List Frame) : Frame :=
  ⟨(Fs.flatMap Frame.cols).foldl addCol [], Fs.flatMap fun F => F.rows.map (onlyFields F.cols)⟩

/-- The rows a query describes that starts with `multisearch`. -/
def splMulti (S : Sem) (A : Aggs) (O : Arrangement) (T : Str → Frame) (searches : List (List Command)) (cs : List Command) : Option Frame :=
  (each (splQuery S A O T) searches).bind fun Fs => splRun S A O cs (splTogether Fs)

/-- At least two searches of the fragment whose columns can be in one table, and commands of the fragment after them. -/
def fitsMulti (colsOf : Str → List Str) (searches : List (List Command)) (cs : List Command) : Option (Bool × List Str) :=
  (each (fitsQuery colsOf) searches).bind fun fs =>
    let cols := (fs.flatMap Prod.snd).foldl addCol []
    if 2 ≤ searches.length && goodCols cols && fs.all (fun f => goodCols f.2) then fitsCmds false cols cs else none

/-- What the query needs the rows to be like. -/
def DefiniteMulti (S : Sem) (A : Aggs) (O : Arrangement) (T : Str → Frame) (searches : List (List Command)) (cs : List Command) : Prop :=
  (∀ p ∈ searches, Definite S A O T p) ∧
    ∀ Fs, each (splQuery S A O T) searches = some Fs → definiteCmds S A O cs (splTogether Fs)

end Verif.Spec
