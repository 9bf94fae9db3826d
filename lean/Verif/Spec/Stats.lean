import Verif.Spec.Rows
/-
Specification: the statistic that each function of `stats` is documented to compute (SPL reference, statistical and charting
functions; the wording is also in the comments of src/pyspark/transpiler/functions/stat_fns.rs), and what the aggregate functions
of `pyspark.sql.functions` compute.  Numbers are exact; the square root is a parameter.
-/
namespace Verif.Spec

/-- the value of an aggregate: one value, or a multivalue entry -/
inductive Outcome
  | one (v : Val)
  | many (vs : List Val)
deriving DecidableEq

/-! ### numbers -/

def total (l : List Rat) : Rat := l.foldr (· + ·) 0

def meanOf (l : List Rat) : Rat := total l / l.length

/-- the sum of the squared differences from the mean -/
def deviation (l : List Rat) : Rat := total (l.map fun q => (q - meanOf l) * (q - meanOf l))

/-- a number put into an ascending list -/
def insertAsc (q : Rat) : List Rat → List Rat
  | [] => [q]
  | a :: l => if q ≤ a then q :: a :: l else a :: insertAsc q l

/-- the numbers in ascending order -/
def ascending (l : List Rat) : List Rat := l.foldr insertAsc []

/-- nothing, if there is no value -/
def orNull : Option Rat → Val
  | some q => .num q
  | none => .null

/-- a statistic of at least one number -/
def ofSome (f : List Rat → Rat) (l : List Rat) : Val := if l = [] then .null else .num (f l)

/-- the smallest value such that at least a part `p` of the values is not larger -/
def nearestRank (p : Rat) (l : List Rat) : Option Rat := (ascending l)[(p * l.length).ceil.toNat - 1]?

/-- between the two values next to the rank -/
def interpolated (p : Rat) (l : List Rat) : Option Rat :=
  let at_ := p * ((l.length : Rat) - 1)
  let k := at_.floor.toNat
  ((ascending l)[k]?).map fun a =>
    match (ascending l)[k + 1]? with
    | some b => a + (at_ - k) * (b - a)
    | none => a

/-- numbers, if all values are -/
def asNumbers : List Val → Option (List Rat) := each fun v => match v with | .num q => some q | _ => none

/-! ### SPL -/

/-- The functions of one field that are a statistic of the numbers in it.  `root` is the square root.  `median`: "if there is an
even number of events, the higher of the two middle values". -/
def splStats (root : Rat → Rat) : List (Str × (List Rat → Val)) :=
  [ (c!"avg", ofSome meanOf),
    (c!"mean", ofSome meanOf),
    (c!"count", fun l => .num l.length),
    (c!"dc", fun l => .num (distinctOf l).length),
    (c!"distinct_count", fun l => .num (distinctOf l).length),
    (c!"max", fun l => orNull (ascending l).getLast?),
    (c!"min", fun l => orNull (ascending l).head?),
    (c!"median", fun l => orNull (ascending l)[l.length / 2]?),
    (c!"range", ofSome fun l => ((ascending l).getLast?).getD 0 - ((ascending l).head?).getD 0),
    (c!"stdev", ofSome fun l => root (deviation l / (l.length - 1))),
    (c!"stdevp", ofSome fun l => root (deviation l / l.length)),
    (c!"sum", ofSome total),
    (c!"sumsq", ofSome fun l => total (l.map fun q => q * q)),
    (c!"var", ofSome fun l => deviation l / (l.length - 1)),
    (c!"varp", ofSome fun l => deviation l / l.length) ]

/-- The percentile functions: their names are followed by a number from 0 to 100.  With fewer than 1000 different values all
of them are the nearest rank. -/
def splPercentiles : List Str := [c!"perc", c!"p", c!"exactperc", c!"upperperc"]

/-- the value of a percentile function -/
def splPercentile (p : Nat) (l : List Rat) : Val := orNull (nearestRank (mkRat p 100) l)

/-- The values of a field in the events that have it. -/
def fieldValues (x : Str) (rows : List Event) : List Val := present (rows.map fun r => r x)

/-- `list`: "up to 100 values of the field as a multivalue entry, in the order of the events". -/
def splList (x : Str) (rows : List Event) : List Val := (fieldValues x rows).take 100

/-- `values`: "all distinct values of the field as a multivalue entry, in lexicographical order". -/
def IsValues (le : Val → Val → Bool) (x : Str) (rows : List Event) (vs : List Val) : Prop :=
  vs.Pairwise (fun a b => le a b = true) ∧ vs.Nodup ∧ ∀ v, v ∈ vs ↔ v ∈ fieldValues x rows

/-- the time of an event is a number -/
def timeOf (r : Event) : Option Rat := match r c!"_time" with | .num q => some q | _ => none

/-- `earliest` (`latest`): "the chronologically earliest (latest) seen occurrence of a value in a field". -/
def IsEarliest (latest : Bool) (x : Str) (rows : List Event) (v : Val) : Prop :=
  ∃ r ∈ rows, r x = v ∧ v ≠ .null ∧ ∃ t, timeOf r = some t ∧
    ∀ r' ∈ rows, r' x ≠ .null → ∃ t', timeOf r' = some t' ∧ (if latest then t' ≤ t else t ≤ t')

/-- `earliest_time` (`latest_time`): "the UNIX time of the earliest (latest) occurrence of a value of the field". -/
def splTime (latest : Bool) (x : Str) (rows : List Event) : Val :=
  let ts := ascending ((rows.filter fun r => r x ≠ .null).filterMap timeOf)
  orNull (if latest then ts.getLast? else ts.head?)

/-! ### PySpark -/

/-- Aggregate functions of numbers; they leave out nulls.  A single number has no sample variance. -/
def sparkStats (root : Rat → Rat) : List (Str × (List Rat → Val)) :=
  [ (c!"avg", ofSome meanOf),
    (c!"mean", ofSome meanOf),
    (c!"count_distinct", fun l => .num (distinctOf l).length),
    (c!"max", fun l => orNull (ascending l).getLast?),
    (c!"min", fun l => orNull (ascending l).head?),
    (c!"stddev_samp", fun l => if l.length < 2 then .null else .num (root (deviation l / (l.length - 1)))),
    (c!"stddev_pop", ofSome fun l => root (deviation l / l.length)),
    (c!"sum", ofSome total),
    (c!"var_samp", fun l => if l.length < 2 then .null else .num (deviation l / (l.length - 1))),
    (c!"var_pop", ofSome fun l => deviation l / l.length) ]

/-- Aggregate functions of values of any kind. -/
def sparkCollect (f : Str) (vs : List Val) : Option Outcome :=
  if f = c!"count" then some (.one (.num (present vs).length))
  else if f = c!"first" then some (.one (vs.head?.getD .null))
  else if f = c!"last" then some (.one (vs.getLast?.getD .null))
  else if f = c!"collect_list" then some (.many (present vs))
  else if f = c!"collect_set" then some (.many (distinctOf (present vs)))
  else none

/-- the names of the aggregate functions -/
def aggregateNames : List Str :=
  [ c!"avg", c!"mean", c!"count_distinct", c!"max", c!"min", c!"stddev_samp", c!"stddev_pop", c!"sum", c!"var_samp", c!"var_pop",
    c!"count", c!"first", c!"last", c!"collect_list", c!"collect_set", c!"percentile", c!"percentile_approx", c!"mode",
    c!"approx_count_distinct" ]

mutual
/-- Does an expression contain an aggregate?  The argument of an aggregate may not. -/
def hasAggregate : PyE → Bool
  | .name _ | .num _ _ | .str _ => false
  | .attr e f => aggregateNames.contains f || hasAggregate e
  | .call f as => hasAggregate f || hasAggregateL as
  | .kwarg _ e | .inv e | .neg e | .lam _ e => hasAggregate e
  | .list es | .dict es => hasAggregateL es
  | .bin _ l r => hasAggregate l || hasAggregate r
/-- the same for a list -/
def hasAggregateL : List PyE → Bool
  | [] => false
  | e :: es => hasAggregate e || hasAggregateL es
end

/-- The percentage given to `percentile` and `percentile_approx`: a number or a literal column. -/
def percentage : PyE → Option Rat
  | .num w f => some (numVal w f)
  | .call (.attr (.name m) g) [.num w f] => if m = c!"F" ∧ g = c!"lit" then some (numVal w f) else none
  | _ => none

/-- `F.f(column, …)`, given the values of the column on the rows of the group in the order in which they come. -/
def sparkAggFn (root : Rat → Rat) (f : Str) (vs : List Val) (rest : List PyE) : Option Outcome :=
  match rest with
  | [] =>
    match (sparkStats root).lookup f with
    | some g => (asNumbers (present vs)).map fun l => .one (g l)
    | none => sparkCollect f vs
  | [p] =>
    if f = c!"percentile_approx" then (percentage p).bind fun q => (asNumbers (present vs)).map fun l => .one (orNull (nearestRank q l))
    else if f = c!"percentile" then (percentage p).bind fun q => (asNumbers (present vs)).map fun l => .one (orNull (interpolated q l))
    else if p = .name c!"True" ∧ (f = c!"first" ∨ f = c!"last") then sparkCollect f (present vs)
    else none
  | _ => none

/-- Value of an aggregate on the rows of a group in the order in which they come; `none`: an error, or outside the modelled
part. -/
def sparkStat (S : Sem) (root : Rat → Rat) (rows : List Event) : PyE → Option Outcome
  | .call (.attr (.name m) f) (c :: rest) =>
    if m = c!"F" ∧ hasAggregateL (c :: rest) = false then (each (colValue S c) rows).bind fun vs => sparkAggFn root f vs rest
    else none
  | .call (.attr e al) [.str _] => if al = c!"alias" then sparkStat S root rows e else none
  | .bin op l r =>
    match pyOp op, sparkStat S root rows l, sparkStat S root rows r with
    | some o, some (.one a), some (.one b) => some (.one (S.op o a b))
    | _, _, _ => none
  | _ => none

/-- The aggregates in a program `….groupBy(…).agg(…)`, and the data frame that is grouped. -/
def aggregatesOf (text : Str) : Option (PyE × List PyE) :=
  match readProg text with
  | some ⟨[], .call (.attr (.call (.attr e g) _) f) args⟩ => if g = c!"groupBy" ∧ f = c!"agg" then some (e, args) else none
  | _ => none

/-- Arithmetic of numbers is exact, and null in an operand gives null. -/
structure Exact (S : Sem) : Prop where
  sub : ∀ a b, S.arith .sub (.num a) (.num b) = .num (a - b)
  mul : ∀ a b, S.arith .mul (.num a) (.num b) = .num (a * b)
  mul_null : S.arith .mul .null .null = .null
  sub_null : S.arith .sub .null .null = .null

end Verif.Spec
