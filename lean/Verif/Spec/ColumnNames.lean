import Verif.Spec.Rows
/-
Specification: how Spark finds the column a text names (`UnresolvedAttribute.parseAttributeName` and the resolution of its parts against the columns of
a table, with `spark.sql.caseSensitive` as delivered).
-/
namespace Verif.Spec

/-- where one is in a name -/
inductive NamePos
  /-- at the beginning of a part -/
  | fresh
  /-- in a part -/
  | inside
  /-- between backquotes -/
  | quoted
  /-- after a backquote between backquotes: the end of the quoted text, or a backquote written twice -/
  | closing
deriving DecidableEq

/-- The parts of a name: parts are separated by dots, and between backquotes all characters stand for themselves.  `part` is what has been read of
the present part. -/
def nameParts (pos : NamePos) (part : Str) : Str → Option (List Str)
  | [] => if pos = .quoted then none else some [part]
  | c :: s =>
    if pos = .quoted then (if c = '`' then nameParts .closing part s else nameParts .quoted (part ++ [c]) s)
    else if pos = .closing ∧ c = '`' then nameParts .quoted (part ++ [c]) s
    else if c = '.' then (if pos = .fresh ∨ s = [] then none else (nameParts .fresh [] s).map (part :: ·))
    else if pos = .closing then none
    else if c = '`' then (if part = [] then nameParts .quoted [] s else none)
    else nameParts .inside (part ++ [c]) s

/-- What is left of a name after a qualifier, in any letter case. -/
def afterQualifier : List Str → List Str → Option (List Str)
  | [], ps => some ps
  | _ :: _, [] => none
  | q :: qs, p :: ps => if lower q = lower p then afterQualifier qs ps else none

/-- The column of a name, in any letter case; further parts lead into a value that is a structure (`inner`).  `none`: the program is refused, as no
column or more than one has the name. -/
def columnAt (inner : Val → List Str → Option Val) (cols : List Str) (row : Event) : List Str → Option Val
  | [] => none
  | p :: ps =>
    match cols.filter fun c => lower c = lower p with
    | [c] => if ps = [] then some (row c) else inner (row c) ps
    | _ => none

/-- Is there a column with the name that begins these parts? -/
def startsColumn (cols : List Str) : List Str → Bool
  | [] => false
  | p :: _ => cols.any fun c => lower c = lower p

/-- The value a name stands for on a row of a table with the given columns, which is known by the names `quals` (each a list of parts, as in
`catalog.database.table`): a column after one of these names, or else a column. -/
def resolve (inner : Val → List Str → Option Val) (quals : List (List Str)) (cols : List Str) (row : Event) (name : Str) : Option Val :=
  (nameParts .fresh [] name).bind fun ps =>
    match (quals.filterMap fun q => afterQualifier q ps).filter (startsColumn cols) with
    | rest :: _ => columnAt inner cols row rest
    | [] => columnAt inner cols row ps

end Verif.Spec
