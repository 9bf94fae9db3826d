import Verif.Spl.Ast
import Verif.Spec.Python
/-
Specification: time specifiers.  Times are seconds since 1970-01-01 00:00:00 in one time zone without changes of the clock.
The calendar (when months begin, and what the same time some months later is) is a parameter.
-/
namespace Verif.Spec
open Verif

/-- units of time -/
inductive TUnit
  | second | minute | hour | day | week | month
deriving DecidableEq

/-- the names of the units in syntax trees -/
def unitOfName (s : Str) : Option TUnit :=
  if s = c!"seconds" then some .second
  else if s = c!"minutes" then some .minute
  else if s = c!"hours" then some .hour
  else if s = c!"days" then some .day
  else if s = c!"weeks" then some .week
  else if s = c!"months" then some .month
  else none

/-- `s` is the latest time not after `t` with the property -/
def Latest (p : Int → Prop) (t s : Int) : Prop := p s ∧ s ≤ t ∧ ∀ r, p r → r ≤ t → r ≤ s

/-- the beginnings of months and the same time some months later -/
structure Calendar where
  monthBegins : Int → Prop
  monthStart : Int → Int
  monthStart_spec : ∀ t, Latest monthBegins t (monthStart t)
  addMonths : Int → Int → Int

/-- 1970-01-04 was a Sunday -/
def aSunday : Int := 3 * 86400

/-- when a unit begins; weeks begin on Sunday -/
def begins (c : Calendar) : TUnit → Int → Prop
  | .second, _ => True
  | .minute, t => 60 ∣ t
  | .hour, t => 3600 ∣ t
  | .day, t => 86400 ∣ t
  | .week, t => 604800 ∣ t - aSunday
  | .month, t => c.monthBegins t

/-- the time `n` units later -/
def later (c : Calendar) (n : Int) : TUnit → Int → Int
  | .second, t => t + n
  | .minute, t => t + 60 * n
  | .hour, t => t + 3600 * n
  | .day, t => t + 86400 * n
  | .week, t => t + 604800 * n
  | .month, t => c.addMonths n t

/-- an amount that may be left out -/
def Shifted (c : Calendar) : Option TimeSpan → Int → Int → Prop
  | none, t, r => r = t
  | some x, t, r => ∃ u, unitOfName x.scale = some u ∧ r = later c x.value u t

/-- SPL: go the first amount of time, then back to the beginning of the unit, then go the second amount. -/
def Adjusted (c : Calendar) (x : SnapTime) (t r : Int) : Prop :=
  ∃ a u s, Shifted c x.span t a ∧ unitOfName x.snap = some u ∧ Latest (begins c u) a s ∧ Shifted c x.snapOffset s r

/-! ### Spark -/

/-- a whole number in SQL text -/
def sqlInt : Str → Option Int
  | '-' :: ds => if ds ≠ [] ∧ ds.all isDig then some (-(digitsVal ds : Int)) else none
  | ds => if ds ≠ [] ∧ ds.all isDig then some (digitsVal ds) else none

/-- `INTERVAL n UNITS` -/
def sqlInterval (s : Str) : Option (Int × TUnit) :=
  match splitOnC ' ' s with
  | [k, n, u] =>
    if k = c!"INTERVAL" then
      match sqlInt n, unitOfName (lower u) with
      | some n, some u => some (n, u)
      | _, _ => none
    else none
  | _ => none

/-- `date_trunc`: as documented, weeks begin on Monday -/
def dateTrunc (c : Calendar) (u : Str) (t : Int) : Option Int :=
  if u = c!"second" then some t
  else if u = c!"minute" then some (t - t % 60)
  else if u = c!"hour" then some (t - t % 3600)
  else if u = c!"day" then some (t - t % 86400)
  else if u = c!"week" then some (t - (t - (aSunday + 86400)) % 604800)
  else if u = c!"month" then some (c.monthStart t)
  else none

/-- `F.expr("INTERVAL n UNITS")` -/
def intervalOf : PyE → Option (Int × TUnit)
  | .call (.attr (.name m) f) [.str s] => if m = c!"F" ∧ f = c!"expr" then sqlInterval s else none
  | _ => none

mutual
/-- The time a column is, given the times of the columns `to_timestamp` is applied to. -/
def timeVal (c : Calendar) (col : PyE → Option Int) : PyE → Option Int
  | .bin op l r =>
    if op = c!"+" then
      match timeVal c col l, intervalOf r with
      | some t, some (n, u) => some (later c n u t)
      | _, _ => none
    else none
  | .call f args => timeCall c col f args
  | _ => none
/-- calls of `to_timestamp` and `date_trunc` -/
def timeCall (c : Calendar) (col : PyE → Option Int) : PyE → List PyE → Option Int
  | .attr (.name m) f, [e] => if m = c!"F" ∧ f = c!"to_timestamp" then col e else none
  | .attr (.name m) f, [.str u, e] =>
    if m = c!"F" ∧ f = c!"date_trunc" then (timeVal c col e).bind (dateTrunc c u) else none
  | _, _ => none
end

end Verif.Spec
