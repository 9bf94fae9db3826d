import Verif.Spec.Meaning
import Verif.Spec.Program
/-
Specification: the rows an SPL query describes, and the rows a PySpark program computes.

A table has named columns and rows; a row gives a value for every name, null for the fields it lacks.
Both sides share the primitive operations: `Sem` on values, and `Aggs` for the aggregate functions of a
list of values and the order of values in a sort.  Every theorem quantifies over them.  Where a language does
not say in which order rows come, the order is a parameter of its own for each side.
-/
namespace Verif.Spec

/-- A table. -/
structure Frame where
  cols : List Str
  rows : List Event

/-- aggregate functions both languages have -/
inductive Agg
  | mean | distinct | greatest | least | mode | sdSample | sdPopulation | total | varSample | varPopulation | first | last
deriving DecidableEq, Repr

/-- Does the value depend on the order of the rows?  (`mode` is one of several most frequent values.) -/
def Agg.ordered : Agg → Bool
  | .mode | .first | .last => true
  | _ => false

/-- The primitive operations on lists of values. -/
structure Aggs where
  /-- the aggregate of the values that are not null -/
  agg : Agg → List Val → Val
  /-- does a value come before (or together with) another one in ascending order? -/
  le : Val → Val → Bool
  agg_perm : ∀ g vs ws, g.ordered = false → vs.Perm ws → agg g vs = agg g ws
  le_total : ∀ a b, (le a b || le b a) = true
  le_trans : ∀ a b c, le a b = true → le b c = true → le a c = true

/-- The order in which rows come that are in no particular order: the groups of an aggregation, and rows that are equal
in a sort.  It may be a different one in each language. -/
structure Arrangement where
  of : List Event → List Event
  perm : ∀ l, (of l).Perm l

/-- One value for each element; `none` if there is none for some element. -/
def each {α β} (f : α → Option β) : List α → Option (List β)
  | [] => some []
  | a :: as => (f a).bind fun b => (each f as).map (b :: ·)

/-- The rows on which a condition is true; `none` if it has no value on some row. -/
def keepIf (f : Event → Option Bool) : List Event → Option (List Event)
  | [] => some []
  | r :: rs => (f r).bind fun b => (keepIf f rs).map fun rest => if b then r :: rest else rest

/-- a row with the value of one column replaced -/
def setField (r : Event) (n : Str) (v : Val) : Event := fun m => if m = n then v else r m

/-- a column is replaced where it is, or added at the end -/
def addCol (cols : List Str) (n : Str) : List Str := if n ∈ cols then cols else cols ++ [n]

/-- only some columns of a row -/
def onlyFields (ns : List Str) (r : Event) : Event := fun m => if m ∈ ns then r m else .null

/-- the row with the given values -/
def rowOf (l : List (Str × Val)) : Event := fun m => (l.lookup m).getD .null

/-- keys of a sort: descending or not, and the column -/
abbrev RowKey := Bool × Str

/-- Does a row come before (or together with) another one?  `le` says it for the values of one key, descending or not. -/
def rowLe (le : Bool → Val → Val → Bool) : List RowKey → Event → Event → Bool
  | [], _, _ => true
  | (d, n) :: ks, a, b => if le d (a n) (b n) && le d (b n) (a n) then rowLe le ks a b else le d (a n) (b n)

/-- The rows in the order of the keys; rows that are equal in them come in any order. -/
def sortRows (le : Bool → Val → Val → Bool) (O : Arrangement) (ks : List RowKey) (rows : List Event) : List Event :=
  (O.of rows).mergeSort (rowLe le ks)

/-- SPL: a missing value is "the smallest or largest possible value if the order is descending or ascending", so it comes
last in either order. -/
def splLe (A : Aggs) (d : Bool) (a b : Val) : Bool :=
  if b = .null then true else if a = .null then false else if d then A.le b a else A.le a b

/-- Spark: null is the smallest value (`asc()` is nulls first, `desc()` nulls last). -/
def sparkLe (A : Aggs) (d : Bool) (a b : Val) : Bool :=
  if d then (if b = .null then true else if a = .null then false else A.le b a)
  else (if a = .null then true else if b = .null then false else A.le a b)

/-- No two different rows are equal in the keys, and no key is missing. -/
def Untied (A : Aggs) (ks : List RowKey) (rows : List Event) : Prop :=
  (∀ a ∈ rows, ∀ b ∈ rows, rowLe (splLe A) ks a b = true → rowLe (splLe A) ks b a = true → a = b) ∧
    ∀ a ∈ rows, ∀ k ∈ ks, a k.2 ≠ .null

/-- different elements, in the order of their first occurrence -/
def distinctOf {α} [DecidableEq α] : List α → List α
  | [] => []
  | a :: as => a :: (distinctOf as).filter (· ≠ a)

/-- The values of some columns that occur; without columns there is one group, even if there are no rows. -/
def groupKeys (ks : List Str) (rows : List Event) : List (List Val) :=
  if ks = [] then [[]] else distinctOf (rows.map fun r => ks.map r)

/-- the rows with the given values in some columns -/
def groupOf (ks : List Str) (rows : List Event) (k : List Val) : List Event := rows.filter fun r => ks.map r = k

/-- One row for each group: the columns of the group, and the aggregates. -/
def groupRows (O : Arrangement) (ks : List Str) (rows : List Event) (aggs : List Event → Option (List (Str × Val))) :
    Option (List Event) :=
  (each (fun k => (aggs (groupOf ks rows k)).map fun as => rowOf (ks.zip k ++ as)) (groupKeys ks rows)).map O.of

/-! ### SPL -/

mutual
/-- the fields an expression names -/
def exprFields : Expr → List Str
  | .const (.field f) => [f]
  | .binary l _ r => exprFields l ++ exprFields r
  | .unary _ r => exprFields r
  | .fieldIn f _ => [f]
  | .call _ args => exprFieldsL args
  | _ => []
/-- the fields some expressions name -/
def exprFieldsL : List Expr → List Str
  | [] => []
  | e :: es => exprFields e ++ exprFieldsL es
end

/-- A search term `index=x`. -/
def indexValue : Expr → Option Str
  | .binary (.const (.field f)) op (.const k) =>
    if f = c!"index" ∧ op = c!"=" then
      match k with
      | .field s => some s
      | .str s => some s
      | _ => none
    else none
  | _ => none

/-- In a search these words with an equals sign bound the time of the events; they are not fields (SPL reference, "Time
modifiers"). -/
def boundWords : List Str := [c!"earliest", c!"latest", c!"starttime", c!"endtime", c!"timeformat"]

/-- `earliest=t` and `latest=t` with a number of seconds `t`: the time from which on events are kept, and the time before
which they are. -/
def timeBound (f : Str) : Option Oper := if f = c!"earliest" then some .ge else if f = c!"latest" then some .lt else none

/-- Is a search condition true of an event?  On the right of a comparison stands a value, so a word is a text.  The
condition is either true or not: a comparison with a field the event lacks is not true, and `NOT` reverses that (SPL
reference, "Difference between NOT and !=").  `none`: outside the fragment. -/
def splSearch (S : Sem) (row : Event) : Expr → Option Bool
  | .binary l op r =>
    match l, r with
    | .const (.field f), .const (.wildcard p) =>
      if f ∈ boundWords then none
      else if splOp op = some .eq then some (S.matches (row f) (wildToks p) == some true)
      else if splOp op = some .ne then some (S.matches (row f) (wildToks p) == some false)
      else none
    | .const (.field f), .const k =>
      if f ∈ boundWords then
        match timeBound f, k with
        | some o, .int n => if op = c!"=" then some (S.cmp o (row c!"_time") (.num n) == some true) else none
        | _, _ => none
      else (splOp op).bind fun o =>
        if o ∈ [.eq, .ne, .lt, .le, .gt, .ge] then
          (match k with
           | .field s => some (Val.str s)
           | k => constVal row k).map fun v => S.cmp o (row f) v == some true
        else none
    | l, r =>
      if splOp op = some .and then (splSearch S row l).bind fun a => (splSearch S row r).map fun b => a && b
      else if splOp op = some .or then (splSearch S row l).bind fun a => (splSearch S row r).map fun b => a || b
      else none
  | .unary op r => if lower op = c!"not" then (splSearch S row r).map (!·) else none
  | .fieldIn f es => (splIn S (row f) es).map (· == some true)
  | _ => none

/-- the terms of a search, all of which have to hold -/
def searchTerms : Expr → List Expr
  | .binary l op r => if op = c!"AND" then searchTerms l ++ searchTerms r else [.binary l op r]
  | e => [e]

/-- Do all terms hold? -/
def splSearchAll (S : Sem) (row : Event) : List Expr → Option Bool
  | [] => some true
  | e :: es => (splSearch S row e).bind fun a => (splSearchAll S row es).map fun b => a && b

/-- The functions of `stats` that are an aggregate of the values of a field (SPL reference, statistical functions). -/
def splAggs : List (Str × Agg) :=
  [ (c!"avg", .mean), (c!"mean", .mean), (c!"dc", .distinct), (c!"distinct_count", .distinct), (c!"max", .greatest),
    (c!"min", .least), (c!"mode", .mode), (c!"stdev", .sdSample), (c!"stdevp", .sdPopulation), (c!"sum", .total),
    (c!"var", .varSample), (c!"varp", .varPopulation), (c!"first", .first), (c!"last", .last) ]

/-- the values that are there -/
def present (vs : List Val) : List Val := vs.filter (· ≠ .null)

/-- An aggregate of a group of events: `count`, `count(f)`, or an aggregate of a field. -/
def splAggregate (A : Aggs) (rows : List Event) (name : Str) (args : List Expr) : Option Val :=
  match args with
  | [] => if name = c!"count" then some (.num rows.length) else none
  | [.const (.field f)] =>
    let vs := present (rows.map fun r => r f)
    if name = c!"count" then some (.num vs.length)
    else (splAggs.lookup name).map fun g => A.agg g vs
  | _ => none

/-- The name of an aggregate: the one given, or the call as written. -/
def splAggName : Expr → Option (Str × Str × List Expr)
  | .alias (.call f args) n => some (n, f, args)
  | .call f [] => some (f, f, [])
  | .call f [.const (.field x)] => some (f ++ c!"(" ++ x ++ c!")", f, [.const (.field x)])
  | _ => none

/-- an aggregate of a group with its name -/
def splNamed (A : Aggs) (rows : List Event) (e : Expr) : Option (Str × Val) :=
  (splAggName e).bind fun x => (splAggregate A rows x.2.1 x.2.2).map fun v => (x.1, v)

/-- Assignments, one after the other. -/
def splAssign (S : Sem) : List (Str × Expr) → Frame → Option Frame
  | [], F => some F
  | (n, e) :: rest, F =>
    (each (fun r => (splEval S r e).map (setField r n)) F.rows).bind fun rows => splAssign S rest ⟨addCol F.cols n, rows⟩

/-- A row in which fields have new names, all renamed at once. -/
def renamedRow (as : List (Str × Str)) (r : Event) : Event := fun m =>
  match as.find? fun a => a.2 = m with
  | some a => r a.1
  | none => if m ∈ as.map Prod.fst then .null else r m

/-- the new name of a column -/
def renamedCol (as : List (Str × Str)) (c : Str) : Str :=
  match as.find? fun a => a.1 = c with
  | some a => a.2
  | none => c

/-- The columns after `rename`; a field that is there already is replaced. -/
def renamedCols (as : List (Str × Str)) (cols : List Str) : List Str :=
  (cols.filter fun c => c ∈ as.map Prod.fst ∨ c ∉ as.map Prod.snd).map (renamedCol as)

/-- The fields `fields` keeps without being told to. -/
def internalFields : List Str := [c!"_raw", c!"_time"]

/-- the sign of a sort key, and whether the order is reversed as a whole -/
def splSortKey (reversed : Bool) : Option Str × Expr → Option RowKey
  | (sign, .const (.field f)) =>
    if sign = none ∨ sign = some c!"+" then some (reversed, f)
    else if sign = some c!"-" then some (!reversed, f)
    else none
  | _ => none

/-- the names of the fields after `BY`, none of them with a span -/
def byNames : Option (List SpField) → Option (List Str)
  | none => some []
  | some fs => if fs.all fun f => f.span.isNone then some (fs.map SpField.field) else none

/-- A value in a sum: what is not a number does not count. -/
def summand (S : Sem) (v : Val) : Val := if S.prim .toNumber [v] = .null then .num 0 else v

/-- The sum of the values of some fields. -/
def splTotal (S : Sem) (fs : List Str) (r : Event) : Val :=
  (foldVals (fun a b => S.op .add a b) (fs.map fun f => summand S (r f))).getD (.num 0)

/-- the field of a `regex` command, and whether the events that match are the ones removed -/
def regexItem : Option (Str × Str) → Option (Str × Bool)
  | none => some (c!"_raw", false)
  | some (f, op) => if op = c!"=" then some (f, false) else if op = c!"!=" then some (f, true) else none

/-- the fields the named groups of a pattern set, in order, with the texts of the groups -/
def setGroups : List (Option Str) → List Str → Event → Event
  | some n :: ns, g :: gs, r => setGroups ns gs (setField r n (.str g))
  | none :: ns, _ :: gs, r => setGroups ns gs r
  | _, _, r => r

/-- `rex`: the named groups of the first match become fields; an event that does not match is left alone. -/
def splRex (S : Sem) (field : Str) (p : Pattern × List (Option Str)) (r : Event) : Event :=
  match (S.text (r field)).bind (findMatch p.1) with
  | none => r
  | some gs => setGroups p.2 gs r

/-- columns with the named ones added -/
def addNames (cols : List Str) (ns : List (Option Str)) : List Str := (ns.filterMap id).foldl addCol cols

/-- What a command makes of a table (SPL reference); `none`: outside the fragment.  A search here has no `index=`. -/
def splCmd (S : Sem) (A : Aggs) (O : Arrangement) (F : Frame) : Command → Option Frame
  | .search e => (keepIf (fun r => splSearchAll S r (searchTerms e)) F.rows).map fun rows => ⟨F.cols, rows⟩
  | .where_ e => (keepIf (fun r => (splEval S r e).map fun v => S.truth v == some true) F.rows).map fun rows => ⟨F.cols, rows⟩
  | .eval as => splAssign S as F
  | .rename as => some ⟨renamedCols as F.cols, F.rows.map (renamedRow as)⟩
  | .fields remove fs =>
    if remove then some ⟨F.cols.filter (· ∉ fs), F.rows.map (onlyFields (F.cols.filter (· ∉ fs)))⟩
    else
      let keep := fs ++ internalFields.filter fun i => i ∈ F.cols ∧ i ∉ fs
      some ⟨keep, F.rows.map (onlyFields keep)⟩
  | .table fs => some ⟨fs, F.rows.map (onlyFields fs)⟩
  | .head (.const (.int n)) _ _ => if 0 ≤ n then some ⟨F.cols, F.rows.take n.toNat⟩ else none
  | .sort keys count reversed =>
    if 0 ≤ count then
      (each (splSortKey reversed) keys).map fun ks =>
        ⟨F.cols, if count = 0 then sortRows (splLe A) O ks F.rows else (sortRows (splLe A) O ks F.rows).take count.toNat⟩
    else none
  | .stats o es by_ _ =>
    if o.allNum then none
    else
      (byNames by_).bind fun ks => (each splAggName es).bind fun ns =>
        (groupRows O ks (F.rows.filter fun r => ks.all fun k => r k ≠ .null) fun g => each (splNamed A g) es).map fun rows =>
          ⟨ks ++ ns.map Prod.fst, rows⟩
  | .addTotals c =>
    let fs := if c.fields = [] then F.cols else c.fields
    if c.row && !c.col then some ⟨addCol F.cols c.fieldName, F.rows.map fun r => setField r c.fieldName (splTotal S fs r)⟩ else none
  | .spath path input output =>
    (splPath path).map fun ks =>
      ⟨addCol F.cols (output.getD path), F.rows.map fun r => setField r (output.getD path) (S.jsonAt (r input) ks)⟩
  | .regex item re =>
    (regexItem item).map fun x =>
      ⟨F.cols, F.rows.filter fun r => S.truth (S.prim .regexFind [r x.1, .str re]) == some (!x.2)⟩
  | .rex a =>
    if a.mode = none ∧ a.maxMatch = 1 ∧ a.offsetField = none then
      (readNamed pcreOpen a.regex).map fun p => ⟨addNames F.cols p.2, F.rows.map (splRex S a.field p)⟩
    else none
  | _ => none

/-- The columns of the events `makeresults` makes up. -/
def madeFields (S : Sem) (c : MakeResults) : List (Str × Val) :=
  (c!"_time", S.prim .now []) ::
    if c.annotate then
      [ (c!"_raw", .null), (c!"host", .null), (c!"source", .null), (c!"sourcetype", .null), (c!"splunk_server", .str c.server),
        (c!"splunk_server_group", match c.serverGroup with | some g => .str g | none => .null) ]
    else []

/-- `makeresults` starts a query: so many events, which have the time, and the fields about where events come from if
asked for. -/
def splMade (S : Sem) (c : MakeResults) : Frame :=
  ⟨(madeFields S c).map Prod.fst, List.replicate c.count.toNat (rowOf (madeFields S c))⟩

/-- the commands one after the other -/
def splRun (S : Sem) (A : Aggs) (O : Arrangement) : List Command → Frame → Option Frame
  | [], F => some F
  | c :: cs, F => (splCmd S A O F c).bind (splRun S A O cs)

/-- The rows a query describes, given the indexes.  A query starts with the index named in its first search, with
`main` if none is named. -/
def splQuery (S : Sem) (A : Aggs) (O : Arrangement) (T : Str → Frame) : List Command → Option Frame
  | .search e :: cs =>
    match (searchTerms e).filterMap indexValue with
    | [] => splRun S A O (.search e :: cs) (T c!"main")
    | [i] =>
      (keepIf (fun r => splSearchAll S r ((searchTerms e).filter fun t => (indexValue t).isNone)) (T i).rows).bind fun rows =>
        splRun S A O cs ⟨(T i).cols, rows⟩
    | _ => none
  | .makeResults c :: cs => splRun S A O cs (splMade S c)
  | cs => splRun S A O cs (T c!"main")

/-! ### PySpark -/

/-- the name of a column given as text -/
def textName : PyE → Option Str
  | .str n => some n
  | _ => none

mutual
/-- the columns an expression reads with `F.col` -/
def colRefs : PyE → List Str
  | .name _ | .num _ _ | .str _ => []
  | .attr e _ => colRefs e
  | .call f as =>
    if f = .attr (.name c!"F") c!"col" then as.filterMap textName
    else colRefs f ++ colRefsL as
  | .kwarg _ e => colRefs e
  | .list es => colRefsL es
  | .dict es => colRefsL es
  | .inv e => colRefs e
  | .neg e => colRefs e
  | .bin _ l r => colRefs l ++ colRefs r
  | .lam _ e => colRefs e
/-- the columns a list of expressions reads -/
def colRefsL : List PyE → List Str
  | [] => []
  | e :: es => colRefs e ++ colRefsL es
end

/-- Names both languages take as they are: for Spark a dot names a field of a structure and backquotes are quotes, and
an asterisk stands for any text. -/
def SimpleName (n : Str) : Bool := n.all fun c => c != '.' && c != '`' && c != '*'

/-- Column names of a table in the modelled part: Spark does not distinguish letter case in them. -/
def ColsOk (cols : List Str) : Bool := cols.all SimpleName && decide (cols.map lower).Nodup

/-- The columns an expression reads are there. -/
def known (cols : List Str) (t : PyE) : Bool := (colRefs t).all cols.contains

/-- Value of a column on a row. -/
def colValue (S : Sem) (t : PyE) (r : Event) : Option Val :=
  (pyEval S r t).bind fun o => if o.isColumn then some o.val else none

/-- `F.col('n')` -/
def plainCol : PyE → Option Str
  | .call (.attr (.name m) f) [.str n] => if m = c!"F" ∧ f = c!"col" then some n else none
  | _ => none

/-- A column to group by: its name as a text, or `F.col('n')`. -/
def keyName (t : PyE) : Option Str := (textName t).or (plainCol t)

/-- `F.col('n').asc()` and `F.col('n').desc()` -/
def orderKey : PyE → Option RowKey
  | .call (.attr e f) [] =>
    (plainCol e).bind fun n => if f = c!"asc" then some (false, n) else if f = c!"desc" then some (true, n) else none
  | _ => none

/-- The aggregate functions of `pyspark.sql.functions` with one column; they leave out nulls.  `first`, `last` and `mode` are
not among them: PySpark does not say which value they give, as it does not say in which order the rows of a group come. -/
def sparkAggs : List (Str × Agg) :=
  [ (c!"avg", .mean), (c!"mean", .mean), (c!"count_distinct", .distinct), (c!"max", .greatest), (c!"min", .least),
    (c!"stddev_samp", .sdSample), (c!"stddev_pop", .sdPopulation), (c!"sum", .total),
    (c!"var_samp", .varSample), (c!"var_pop", .varPopulation) ]

/-- `F.f(column)` -/
def sparkAggregate (S : Sem) (A : Aggs) (rows : List Event) (f : Str) (args : List PyE) : Option Val :=
  match args with
  | [c] =>
    (each (colValue S c) rows).bind fun vs =>
      if f = c!"count" then some (.num (present vs).length)
      else (sparkAggs.lookup f).map fun g => A.agg g (present vs)
  | _ => none

/-- an aggregate with a name -/
def sparkNamed (S : Sem) (A : Aggs) (rows : List Event) : PyE → Option (Str × Val)
  | .call (.attr (.call (.attr (.name m) f) args) al) [.str n] =>
    if m = c!"F" ∧ al = c!"alias" then (sparkAggregate S A rows f args).map fun v => (n, v) else none
  | _ => none

/-- the name an aggregate is given -/
def aliasOf : PyE → Option Str
  | .call (.attr _ al) [.str n] => if al = c!"alias" then some n else none
  | _ => none

/-- the result is in the modelled part -/
def okFrame (F : Frame) : Option Frame := if ColsOk F.cols then some F else none

/-- Methods of `pyspark.sql.DataFrame`. -/
def frameMethod (S : Sem) (A : Aggs) (O : Arrangement) (F : Frame) (f : Str) (args : List PyE) : Option Frame :=
  if f = c!"where" then
    match args with
    | [c] =>
      if known F.cols c then
        (keepIf (fun r => (colValue S c r).map fun v => S.truth v == some true) F.rows).map fun rows => ⟨F.cols, rows⟩
      else none
    | _ => none
  else if f = c!"withColumn" then
    match args with
    | [.str n, c] =>
      if known F.cols c then
        (each (fun r => (colValue S c r).map (setField r n)) F.rows).bind fun rows => okFrame ⟨addCol F.cols n, rows⟩
      else none
    | _ => none
  else if f = c!"withColumnRenamed" then
    match args with
    | [.str o, .str n] =>
      if o ∈ F.cols then
        okFrame ⟨F.cols.map fun c => if c = o then n else c,
          F.rows.map fun r m => if m = n then r o else if m = o then .null else r m⟩
      else some F
    | _ => none
  else if f = c!"select" then
    (each plainCol args).bind fun ns =>
      if ns.all F.cols.contains then okFrame ⟨ns, F.rows.map (onlyFields ns)⟩ else none
  else if f = c!"limit" then
    match args with
    | [.num w []] => some ⟨F.cols, F.rows.take (digitsVal w)⟩
    | _ => none
  else if f = c!"orderBy" then
    (each orderKey args).bind fun ks =>
      if ks.all fun k => F.cols.contains k.2 then some ⟨F.cols, sortRows (sparkLe A) O ks F.rows⟩ else none
  else none

/-- `unionByName` with missing columns allowed: the columns of both, and the rows of both, each with its own columns only. -/
def unionFrame (F G : Frame) : Frame :=
  ⟨F.cols ++ G.cols.filter fun n => !F.cols.contains n, F.rows.map (onlyFields F.cols) ++ G.rows.map (onlyFields G.cols)⟩

/-- Value of a Python expression that stands for a data frame, given the tables of the session; `none`: an error, or
outside the modelled part. -/
def frameEval (S : Sem) (A : Aggs) (O : Arrangement) (T : Str → Frame) : PyE → Option Frame
  | .call (.attr (.name m) f) args =>
    match args with
    | [.str t] => if m = c!"spark" ∧ f = c!"table" then okFrame (T t) else none
    | [.num a [], .num b [], .num d []] =>
      if m = c!"spark" ∧ f = c!"range" ∧ digitsVal a = 0 ∧ digitsVal d = 1 then
        some ⟨[c!"id"], (List.range (digitsVal b)).map fun i : Nat => rowOf [(c!"id", .num i)]⟩
      else none
    | _ => none
  | .call (.attr (.call (.attr e g) gs) f) args =>
    if g = c!"groupBy" ∧ f = c!"agg" then
      match gs with
      | [.list ks] =>
        (frameEval S A O T e).bind fun F => (each keyName ks).bind fun ks => (each aliasOf args).bind fun ns =>
          if ks.all F.cols.contains && args.all (known F.cols) then
            (groupRows O ks F.rows fun g => each (sparkNamed S A g) args).bind fun rows => okFrame ⟨ks ++ ns, rows⟩
          else none
      | _ => none
    else if f = c!"unionByName" then
      match args with
      | [t, .kwarg k v] =>
        if k = c!"allowMissingColumns" ∧ v = .name c!"True" then
          (frameEval S A O T (.call (.attr e g) gs)).bind fun F => (frameEval S A O T t).bind fun G => okFrame (unionFrame F G)
        else none
      | _ => none
    else (frameEval S A O T (.call (.attr e g) gs)).bind fun F => frameMethod S A O F f args
  | _ => none

/-- The rows computed by the program in a text, one expression without assignments. -/
def textRows (S : Sem) (A : Aggs) (O : Arrangement) (T : Str → Frame) (text : Str) : Option Frame :=
  match readProg text with
  | some ⟨[], e⟩ => frameEval S A O T e
  | _ => none

end Verif.Spec
