import Verif.Spec.Rows
/-
What `fillnull` does to a table, and what Spark's `fillna` does.

Columns of a Spark table have a type.  `fillna(value)` leaves alone the columns whose type does not fit the value (PySpark reference,
`DataFrame.fillna`: "if value is a string, and subset contains a non-string column, then the non-string column is simply
ignored").  Fields of SPL events have no types.
-/
namespace Verif.Spec
open Verif

/-- the types of columns that matter here -/
inductive Kind
  | text | number | truth
deriving DecidableEq

/-- Can the value stand in a column of the type? -/
def Kind.has : Kind → Val → Bool
  | _, .null => true
  | .text, .str _ => true
  | .number, .num _ => true
  | .truth, .bool _ => true
  | _, _ => false

/-- The values of a table are of the types of their columns. -/
def Typed (ty : Str → Kind) (F : Frame) : Prop := ∀ r ∈ F.rows, ∀ n ∈ F.cols, (ty n).has (r n) = true

/-- a row in which some missing values are replaced -/
def fillRow (these : Str → Bool) (v : Val) (r : Event) : Event := fun n => if these n = true ∧ r n = .null then v else r n

/-- SPL: the missing values of the fields listed are replaced, of all fields if there is no list; a field listed that is
not there is added. -/
def splFill (v : Str) (fs : Option (List Str)) (F : Frame) : Frame :=
  match fs with
  | none => ⟨F.cols, F.rows.map (fillRow F.cols.contains (.str v))⟩
  | some fs => ⟨fs.foldl addCol F.cols, F.rows.map (fillRow fs.contains (.str v))⟩

/-- Spark: `fillna` with a text. -/
def sparkFill (ty : Str → Kind) (v : Str) (F : Frame) : Frame :=
  ⟨F.cols, F.rows.map (fillRow (fun n => F.cols.contains n && ty n = .text) (.str v))⟩

/-- The rows computed by a program that ends with `fillna` of a text; `ty` are the types of the columns before it. -/
def fillRows (S : Sem) (A : Aggs) (O : Arrangement) (T : Str → Frame) (ty : Str → Kind) (text : Str) : Option Frame :=
  match readProg text with
  | some ⟨[], .call (.attr e m) [.str v]⟩ => if m = c!"fillna" then (frameEval S A O T e).map (sparkFill ty v) else none
  | _ => none

end Verif.Spec
