import Verif.Spec.Rows
import Verif.Spec.Fragment
/-
Specification: the searches and queries whose rows are claimed to be kept.  What is left out is left out because the
translation computes something else there (the theorems next to `C74_search_partial` and `C75_rows_partial` show this),
or because it is outside the modelled part of PySpark.
-/
namespace Verif.Spec

/-- the comparisons of a search -/
def searchOps : List Str := [c!"=", c!"==", c!"!=", c!"<", c!"<=", c!">", c!">="]

/-- values on the right of a comparison: numbers and quoted texts (an unquoted word is taken for the name of a field) -/
def SearchValue : Constant → Bool
  | .field _ => false
  | k => FragConst k

/-- Words that are fields in a comparison of a search: they are neither the index nor a bound on the time. -/
def searchField (f : Str) : Bool := f != c!"index" && !boundWords.contains f

/-- Conditions of a search: comparisons of a field with a value or a pattern, `IN`, AND and OR, and NOT if allowed; they
are not about the index or the time range. -/
def SearchFrag (neg : Bool) : Expr → Bool
  | .binary l op r =>
    match l, r with
    | .const (.field f), .const (.wildcard p) => searchField f && Plain '\'' f && FragWildOp op && PlainPat p
    | .const (.field f), .const k => searchField f && Plain '\'' f && searchOps.contains op && SearchValue k
    | l, r => (op == c!"AND" || op == c!"OR") && SearchFrag neg l && SearchFrag neg r
  | .unary op r => neg && op == c!"NOT" && SearchFrag neg r
  | .fieldIn f es => f != c!"index" && Plain '\'' f && es.length != 0 && es.all FragElem
  | _ => false

/-- Every comparison in the condition is decided on the row: none is about a field the row lacks. -/
def Decided (S : Sem) (row : Event) : Expr → Bool
  | .binary l op r =>
    match l, r with
    | .const (.field f), .const (.wildcard _) => (S.text (row f)).isSome
    | .const (.field f), .const k =>
      (match splOp op, constVal row k with
       | some o, some v => (S.cmp o (row f) v).isSome
       | _, _ => false)
    | l, r => Decided S row l && Decided S row r
  | .unary _ r => Decided S row r
  | .fieldIn f es => decide (splIn S (row f) es ≠ some none)
  | _ => false

/-- Every comparison under a NOT is decided on the row. -/
def NotsDecided (S : Sem) (row : Event) : Expr → Bool
  | .binary l _ r => NotsDecided S row l && NotsDecided S row r
  | .unary _ r => Decided S row r
  | _ => true

/-! ### queries -/

/-- Columns of a table in the modelled part, with names that are written in the generated code as they are. -/
def goodCols (cols : List Str) : Bool := ColsOk cols && cols.all fun n => Plain '\'' n && Plain '"' n

/-- An expression names only columns that are there. -/
def readsOnly (cols : List Str) (e : Expr) : Bool := (exprFields e).all cols.contains

/-- Assignments, one after the other; the columns afterwards. -/
def fitsAssign (cols : List Str) : List (Str × Expr) → Option (List Str)
  | [] => some cols
  | (n, e) :: rest =>
    if Frag .disallow e && readsOnly cols e && goodCols (addCol cols n) then fitsAssign (addCol cols n) rest else none

/-- New names for columns that are there, all different from each other and from the columns that are there; the columns
afterwards. -/
def fitsRename (cols : List Str) : List (Str × Str) → Option (List Str)
  | [] => some cols
  | (o, n) :: rest =>
    let cols' := cols.map fun c => if c = o then n else c
    if cols.contains o && o != n && goodCols cols' && (rest.all fun a => a.1 != o && a.1 != n && a.2 != o && a.2 != n)
    then fitsRename cols' rest
    else none

/-- Aggregates: `count`, or `count(f)` and a function of a field with a name given to it. -/
def fitsAgg (cols : List Str) : Expr → Bool
  | .call f [] => f == c!"count"
  | .alias (.call f args) _ =>
    match args with
    | [] => f == c!"count"
    | [.const (.field x)] => cols.contains x && (f == c!"count" || (splAggs.lookup f).any fun g => !g.ordered)
    | _ => false
  | _ => false

/-- Columns and names of a `select`. -/
def fitsSelect (cols fs : List Str) : Bool := fs != [] && fs.all cols.contains && goodCols fs

/-- Paths of keys only, in characters that mean the same in SPL and in Spark. -/
def plainPath (p : Str) : Bool :=
  (splPath p).isSome && Plain '"' p && p.all fun c => c != '{' && c != '[' && c != '*'

/-- A command on a table with the given columns: the columns afterwards, and whether the order of the rows is known
afterwards, given whether it is known before. -/
def fitsCmd (ordered : Bool) (cols : List Str) : Command → Option (Bool × List Str)
  | .search e => if SearchFrag true e && readsOnly cols e then some (ordered, cols) else none
  | .where_ e => if Frag .disallow e && readsOnly cols e then some (ordered, cols) else none
  | .eval as => (fitsAssign cols as).map fun cols' => (ordered, cols')
  | .rename as => (fitsRename cols as).map fun cols' => (ordered, cols')
  | .fields remove fs =>
    if !remove && fitsSelect cols fs && internalFields.all (fun i => !cols.contains i || fs.contains i) then some (ordered, fs)
    else none
  | .table fs => if fitsSelect cols fs then some (ordered, fs) else none
  | .head (.const (.int n)) _ _ => if ordered && decide (0 ≤ n ∧ n < 2 ^ 63) then some (true, cols) else none
  | .sort keys count reversed =>
    match each (splSortKey reversed) keys with
    | some ks =>
      if ks != [] && (ks.all fun k => cols.contains k.2) && decide (0 ≤ count ∧ count < 2 ^ 63) then some (true, cols) else none
    | none => none
  | .stats o es by_ dedup =>
    match byNames by_, each splAggName es with
    | some ks, some ns =>
      if !o.allNum && !dedup && !es.isEmpty && es.all (fitsAgg cols) && ks.all cols.contains && goodCols (ks ++ ns.map Prod.fst) then
        some (ks == [], ks ++ ns.map Prod.fst)
      else none
    | _, _ => none
  | .addTotals c =>
    if c.row && !c.col && !c.fields.isEmpty && c.fields.all cols.contains && goodCols (addCol cols c.fieldName) then
      some (ordered, addCol cols c.fieldName)
    else none
  | .spath path input output =>
    if plainPath path && cols.contains input && goodCols (addCol cols (output.getD path)) then
      some (ordered, addCol cols (output.getD path))
    else none
  | _ => none

/-- commands one after the other -/
def fitsCmds (ordered : Bool) (cols : List Str) : List Command → Option (Bool × List Str)
  | [] => some (ordered, cols)
  | c :: cs => (fitsCmd ordered cols c).bind fun x => fitsCmds x.1 x.2 cs

/-- The condition of a first search: terms of the form `index=x`, and conditions, joined with AND. -/
def FirstFrag : Expr → Bool
  | .binary l op r =>
    SearchFrag true (.binary l op r) || (indexValue (.binary l op r)).any (fun i => i != c!"index" && Plain '\'' i) ||
      (op == c!"AND" && FirstFrag l && FirstFrag r)
  | e => SearchFrag true e

/-- A query on tables with the given columns. -/
def fitsQuery (colsOf : Str → List Str) : List Command → Option (Bool × List Str)
  | [] => none
  | .search e :: cs =>
    match (searchTerms e).filterMap indexValue with
    | [] => if goodCols (colsOf c!"main") then fitsCmds false (colsOf c!"main") (.search e :: cs) else none
    | [i] =>
      if goodCols (colsOf i) && FirstFrag e &&
          ((searchTerms e).filter fun t => (indexValue t).isNone).all (readsOnly (colsOf i)) then
        fitsCmds false (colsOf i) cs
      else none
    | _ => none
  | cs => if goodCols (colsOf c!"main") then fitsCmds false (colsOf c!"main") cs else none

/-- What a command needs the rows to be like: rows in a sort are not tied, the fields grouped by are there, and what a
search excludes with NOT is about fields that are there. -/
def definiteCmd (S : Sem) (A : Aggs) (F : Frame) : Command → Prop
  | .search e => ∀ r ∈ F.rows, NotsDecided S r e = true
  | .sort keys _ reversed => ∀ ks, each (splSortKey reversed) keys = some ks → Untied A ks F.rows
  | .stats _ _ by_ _ => ∀ ks, byNames by_ = some ks → ∀ r ∈ F.rows, ∀ k ∈ ks, r k ≠ .null
  | _ => True

/-- the same for commands one after the other -/
def definiteCmds (S : Sem) (A : Aggs) (O : Arrangement) : List Command → Frame → Prop
  | [], _ => True
  | c :: cs, F => definiteCmd S A F c ∧ ∀ F', splCmd S A O F c = some F' → definiteCmds S A O cs F'

/-- the same for a query -/
def Definite (S : Sem) (A : Aggs) (O : Arrangement) (T : Str → Frame) : List Command → Prop
  | .search e :: cs =>
    match (searchTerms e).filterMap indexValue with
    | [i] =>
      (∀ r ∈ (T i).rows, ∀ t ∈ (searchTerms e).filter fun t => (indexValue t).isNone, NotsDecided S r t = true) ∧
      ∀ rows, keepIf (fun r => splSearchAll S r ((searchTerms e).filter fun t => (indexValue t).isNone)) (T i).rows = some rows →
        definiteCmds S A O cs ⟨(T i).cols, rows⟩
    | _ => definiteCmds S A O (.search e :: cs) (T c!"main")
  | cs => definiteCmds S A O cs (T c!"main")

/-- The same table: the same columns, and the same rows in any order. -/
def SameTable (F F' : Frame) : Prop := F'.cols = F.cols ∧ F'.rows.Perm F.rows

end Verif.Spec
