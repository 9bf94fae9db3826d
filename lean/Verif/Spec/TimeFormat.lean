import Verif.Basic.Text
/-
What time formats mean, on both sides.  Independent of the translation.

* `Piece` — a Splunk format: literal characters and directives (`%` and a tail).
* `splunkField` — the text a directive prints, as documented next to the table (utils.rs:4-83,115-166:
  "Hour (24-hour clock, leading space)", "hour and minute, for example -0500", ...).
* `sparkText` — the text a Spark pattern prints (the table in the comment of utils.rs:85-113): maximal runs
  of one letter are fields, other characters stand for themselves.  `none`: the pattern is refused or is
  not described here (quotes, optional sections and reserved characters).
-/
namespace Verif.Spec.TimeFormat

/-- a moment, split into calendar fields -/
structure Time where
  year : Nat
  month : Nat
  day : Nat
  hour : Nat
  minute : Nat
  second : Nat
  nano : Nat
  /-- 0 = Sunday -/
  weekday : Nat
  yearDay : Nat
  /-- offset from UTC: negative?, hours, minutes, seconds -/
  west : Bool
  offHour : Nat
  offMinute : Nat
  offSecond : Nat
  zone : Str

/-- years of at most four digits -/
def Time.Ok (t : Time) : Prop := t.year < 10000

/-- decimal numeral filled with zeros on the left -/
def pad (w n : Nat) : Str := List.replicate (w - (showNat n).length) '0' ++ showNat n

/-- decimal numeral filled with spaces on the left -/
def padSpace (w n : Nat) : Str := List.replicate (w - (showNat n).length) ' ' ++ showNat n

def monthName (n : Nat) : Str :=
  [c!"January", c!"February", c!"March", c!"April", c!"May", c!"June", c!"July", c!"August", c!"September",
   c!"October", c!"November", c!"December"].getD (n - 1) []

def dayName (n : Nat) : Str :=
  [c!"Sunday", c!"Monday", c!"Tuesday", c!"Wednesday", c!"Thursday", c!"Friday", c!"Saturday"].getD n []

/-- hour on a twelve hour clock, 1 to 12 -/
def Time.hour12 (t : Time) : Nat := if t.hour % 12 = 0 then 12 else t.hour % 12

def Time.half (t : Time) : Str := if t.hour < 12 then c!"AM" else c!"PM"

/-- the first `n` digits of the fraction of the second -/
def Time.fraction (t : Time) (n : Nat) : Str := (pad 9 t.nano).take n

def Time.sign (t : Time) : Str := if t.west then c!"-" else c!"+"

/-- a piece of a Splunk time format -/
inductive Piece
  | lit (c : Char)
  | dir (tail : Str)
deriving DecidableEq, Repr

def Piece.text : Piece → Str
  | .lit c => [c]
  | .dir d => '%' :: d

/-- the text of a format -/
def text (ps : List Piece) : Str := ps.flatMap Piece.text

/-- what a directive prints -/
def splunkField (d : Str) (t : Time) : Option Str :=
  if d = c!"H" then some (pad 2 t.hour)
  else if d = c!"I" then some (pad 2 t.hour12)
  else if d = c!"k" then some (padSpace 2 t.hour)
  else if d = c!"M" then some (pad 2 t.minute)
  else if d = c!"S" then some (pad 2 t.second)
  else if d = c!"p" then some t.half
  else if d = c!"T" then some (pad 2 t.hour ++ c!":" ++ pad 2 t.minute ++ c!":" ++ pad 2 t.second)
  else if d = c!"F" then some (pad 4 t.year ++ c!"-" ++ pad 2 t.month ++ c!"-" ++ pad 2 t.day)
  else if d = c!"f" then some (t.fraction 6)
  else if d = c!"Q" then some (t.fraction 3)
  else if d = c!"3Q" then some (t.fraction 3)
  else if d = c!"6Q" then some (t.fraction 6)
  else if d = c!"9Q" then some (t.fraction 9)
  else if d = c!"Z" then some t.zone
  else if d = c!"z" then some (t.sign ++ pad 2 t.offHour ++ pad 2 t.offMinute)
  else if d = c!":z" then some (t.sign ++ pad 2 t.offHour ++ c!":" ++ pad 2 t.offMinute)
  else if d = c!"::z" then
    some (t.sign ++ pad 2 t.offHour ++ c!":" ++ pad 2 t.offMinute ++ c!":" ++ pad 2 t.offSecond)
  else if d = c!":::z" then some (t.sign ++ pad 2 t.offHour)
  else if d = c!"A" then some (dayName t.weekday)
  else if d = c!"a" then some ((dayName t.weekday).take 3)
  else if d = c!"d" then some (pad 2 t.day)
  else if d = c!"e" then some (padSpace 2 t.day)
  else if d = c!"j" then some (pad 3 t.yearDay)
  else if d = c!"w" then some (showNat t.weekday)
  else if d = c!"B" then some (monthName t.month)
  else if d = c!"b" then some ((monthName t.month).take 3)
  else if d = c!"m" then some (pad 2 t.month)
  else if d = c!"y" then some (pad 2 (t.year % 100))
  else if d = c!"Y" then some (pad 4 t.year)
  else if d = c!"%" then some c!"%"
  else none

/-- what a format prints -/
def splunkText : List Piece → Time → Option Str
  | [], _ => some []
  | .lit c :: ps, t => (splunkText ps t).map (c :: ·)
  | .dir d :: ps, t => match splunkField d t, splunkText ps t with
    | some x, some y => some (x ++ y)
    | _, _ => none

/-- letters are the fields of a Spark pattern -/
def isLetter (c : Char) : Bool := ('a' ≤ c && c ≤ 'z') || ('A' ≤ c && c ≤ 'Z')

/-- characters with a special meaning in a Spark pattern -/
def isSpecial (c : Char) : Bool := c == '\'' || c == '[' || c == ']' || c == '{' || c == '}' || c == '#'

/-- one or two letters: a number, filled to two digits when there are two letters -/
def number (n v : Nat) : Option Str :=
  if n = 1 then some (showNat v) else if n = 2 then some (pad 2 v) else none

/-- what `n` letters `c` print -/
def sparkField (c : Char) (n : Nat) (t : Time) : Option Str :=
  if c = 'y' then
    if n = 2 then some (pad 2 (t.year % 100))
    else if n = 4 then some (if t.year < 10000 then pad 4 t.year else '+' :: showNat t.year) else none
  else if c = 'M' then
    if n = 3 then some ((monthName t.month).take 3)
    else if n = 4 then some (monthName t.month) else number n t.month
  else if c = 'd' then number n t.day
  else if c = 'D' then if n = 3 then some (pad 3 t.yearDay) else number n t.yearDay
  else if c = 'H' then number n t.hour
  else if c = 'h' then number n t.hour12
  else if c = 'm' then number n t.minute
  else if c = 's' then number n t.second
  else if c = 'S' then if n ≤ 9 then some (t.fraction n) else none
  else if c = 'a' then if n = 1 then some t.half else none
  else if c = 'E' then
    if n ≤ 3 then some ((dayName t.weekday).take 3)
    else if n = 4 then some (dayName t.weekday) else none
  else if c = 'z' then if n ≤ 3 then some t.zone else none
  else if c = 'x' then
    if n = 1 then some (t.sign ++ pad 2 t.offHour ++ (if t.offMinute = 0 then [] else pad 2 t.offMinute))
    else if n = 2 then some (t.sign ++ pad 2 t.offHour ++ pad 2 t.offMinute)
    else if n = 3 then some (t.sign ++ pad 2 t.offHour ++ c!":" ++ pad 2 t.offMinute)
    else if n = 4 then
      some (t.sign ++ pad 2 t.offHour ++ pad 2 t.offMinute ++ (if t.offSecond = 0 then [] else pad 2 t.offSecond))
    else if n = 5 then
      some (t.sign ++ pad 2 t.offHour ++ c!":" ++ pad 2 t.offMinute
        ++ (if t.offSecond = 0 then [] else c!":" ++ pad 2 t.offSecond))
    else none
  else none

/-- maximal runs of a letter; every other character by itself -/
def runs : Str → List (Char × Nat)
  | [] => []
  | c :: cs => match runs cs with
    | [] => [(c, 1)]
    | (d, n) :: rest => if c = d ∧ isLetter c = true then (c, n + 1) :: rest else (c, 1) :: (d, n) :: rest

/-- what one run prints -/
def runText (t : Time) (r : Char × Nat) : Option Str :=
  if isLetter r.1 then sparkField r.1 r.2 t else if isSpecial r.1 then none else some [r.1]

/-- what a list of runs prints -/
def runsText (t : Time) : List (Char × Nat) → Option Str
  | [] => some []
  | r :: rs => match runText t r, runsText t rs with
    | some x, some y => some (x ++ y)
    | _, _ => none

/-- what a Spark pattern prints -/
def sparkText (p : Str) (t : Time) : Option Str := runsText t (runs p)

end Verif.Spec.TimeFormat
