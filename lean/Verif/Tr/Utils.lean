import Verif.Py.Tree
import Verif.Spl.Ast
/-
/repo/src/pyspark/transpiler/utils.rs and small numeric helpers.
-/
namespace Verif

/-- fold of `join_as_binaries`: `left = BinaryOp { left, op, right: check }`, utils.rs:14-22 -/
def joinBinFrom (op : Str) : PE → List PE → PE
  | l, [] => l
  | l, e :: es => joinBinFrom op (.bin op l e) es

/-- `join_as_binaries`, utils.rs:4-25 (the cases for one and two expressions agree with the
general loop). -/
def joinAsBinaries (op : Str) : List PE → Option PE
  | [] => none
  | e :: es => some (joinBinFrom op e es)

/-- `CONVERSIONS`, utils.rs:115-166, in order. -/
def conversions : List (Str × Option Str) :=
  [ (c!"%c", none), (c!"%+", none), (c!"%Ez", none), (c!"%f", some c!"SSS"), (c!"%H", some c!"HH"),
    (c!"%I", some c!"hh"), (c!"%k", some c!"H"), (c!"%M", some c!"mm"), (c!"%N", some c!"SSS"),
    (c!"%p", some c!"a"), (c!"%Q", some c!"SSS"), (c!"%3Q", some c!"SSS"), (c!"%6Q", some c!"SSSSSS"),
    (c!"%9Q", some c!"SSSSSSSSS"), (c!"%S", some c!"ss"), (c!"%s", none), (c!"%T", some c!"HH:mm:ss"),
    (c!"%X", none), (c!"%Z", some c!"z"), (c!"%z", some c!"x"), (c!"%:z", some c!"xxxx"),
    (c!"%::z", some c!"xxxxxx"), (c!"%:::z", some c!"xx"), (c!"%F", some c!"yyyy-MM-dd"), (c!"%x", none),
    (c!"%A", some c!"EEEE"), (c!"%a", some c!"EEE"), (c!"%d", some c!"dd"), (c!"%e", some c!"d"),
    (c!"%j", some c!"D"), (c!"%w", some c!"e"), (c!"%b", some c!"MMM"), (c!"%B", some c!"MMMM"),
    (c!"%m", some c!"MM"), (c!"%y", some c!"yy"), (c!"%Y", some c!"yyyy"), (c!"%%", some c!"%") ]

/-- loop of `convert_time_format`, utils.rs:168-181 -/
def convertTimeFormatLoop : List (Str × Option Str) → Str → Option Str
  | [], s => some s
  | (pat, rep) :: rest, s =>
    if containsSub pat s then
      match rep with
      | none => none
      | some r => convertTimeFormatLoop rest (replaceAll pat r s)
    else convertTimeFormatLoop rest s

/-- `convert_time_format`, utils.rs:168-181 -/
def convertTimeFormat (s : Str) : Option Str := convertTimeFormatLoop conversions s

/-- An `i64` result computed with wrapping arithmetic (release build; a debug build panics instead). -/
def wrapI64 (n : Int) : Int :=
  let m := n % (2 ^ 64 : Int)
  if m < 2 ^ 63 then m else m - 2 ^ 64

/-- drop leading zeros, keeping at least one digit -/
def stripLeadingZeros : Str → Str
  | [] => c!"0"
  | [c] => [c]
  | c :: cs => if c = '0' then stripLeadingZeros cs else c :: cs

/-- drop trailing zeros -/
def stripTrailingZeros (s : Str) : Str := (s.reverse.dropWhile (· == '0')).reverse

/-- `f64::to_string` of a literal.  Simplification: the decimal numeral in normal form (no
leading or trailing zeros), which is what Rust prints for numerals of at most 15 significant
digits; longer numerals are rounded by `f64`, which is not modelled. -/
def Dbl.text (d : Dbl) : Str :=
  let f := stripTrailingZeros d.frac
  (if d.neg then c!"-" else []) ++ stripLeadingZeros d.whole ++ (if f = [] then [] else '.' :: f)

/-- `u32 as f64 / 100.0` printed by `f64::to_string` (at most ten significant digits, so the
decimal value is printed exactly); stat_fns.rs:141,160,179. -/
def percentText (p : Nat) : Str :=
  Dbl.text ⟨false, showNat (p / 100), [digitC (p % 100 / 10), digitC (p % 10)]⟩

/-- `str::parse::<u32>`: an optional `+`, at least one ASCII digit, value below `2^32`. -/
def parseU32 (s : Str) : Option Nat :=
  let ds := match s with | '+' :: r => r | r => r
  if ds ≠ [] && ds.all isDig && digitsVal ds < 2 ^ 32 then some (digitsVal ds) else none

end Verif
