import Verif.Spec.Rows
/-
Specification: the events a search describes when the events are kept in indexes.  From the SPL reference: `index` is a field of every
event, the name of the index the event is in; a search describes the events of all indexes on which its condition is true.
-/
namespace Verif.Spec

/-- an event with the index it is in -/
def fromIndex (i : Str) (r : Event) : Event := setField r c!"index" (.str i)

/-- The events of an index a search describes. -/
def selected (S : Sem) (e : Expr) (T : Str → Frame) (i : Str) : Option (List Event) :=
  keepIf (fun r => splSearch S (fromIndex i r) e) (T i).rows

/-- Texts are equal when they are the same. -/
def EqTexts (S : Sem) : Prop := ∀ a b, S.cmp .eq (.str a) (.str b) = some (decide (a = b))

end Verif.Spec
