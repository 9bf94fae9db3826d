import Verif.Basic.Text
/-
`nom::bytes::complete::tag_no_case` with the bytes of the text and with panics.  `Nom/Core.lean: tagNoCaseL` folds
ASCII letters and takes as many characters as the tag has.  nom (7.1, `traits.rs`, `compare_no_case` and `take_split` of
`&str`) compares `char::to_lowercase` of the characters side by side as long as there are characters on both sides, then
the lengths in bytes, and splits the text after as many bytes as the tag has.  `str::split_at` panics when that is inside a
character.
-/
namespace Verif

/-- the result of a matcher: the rest and the text read, an ordinary error, or a panic -/
inductive Res where
  | ok (rest read : Str)
  | refuse
  | panic
deriving DecidableEq, Repr

/-- length in bytes -/
def utf8Len : Str → Nat
  | [] => 0
  | c :: s => c.utf8Size + utf8Len s

/-- `str::split_at`; `none` is a panic -/
def splitBytes : Nat → Str → Option (Str × Str)
  | 0, s => some ([], s)
  | _ + 1, [] => none
  | n + 1, c :: s =>
    if c.utf8Size ≤ n + 1 then (splitBytes (n + 1 - c.utf8Size) s).map fun x => (c :: x.1, x.2) else none

/-- the loop of `compare_no_case`: no position differs -/
def sameFolded (low : Char → Str) : Str → Str → Bool
  | a :: s, b :: t => low a = low b && sameFolded low s t
  | _, _ => true

/-- `tag_no_case(t)`; `low` is `char::to_lowercase` -/
def tagNoCaseRs (low : Char → Str) (t i : Str) : Res :=
  if sameFolded low i t then
    if utf8Len t ≤ utf8Len i then
      match splitBytes (utf8Len t) i with
      | some (m, r) => .ok r m
      | none => .panic
    else .refuse
  else .refuse

/-- `alt` -/
def altRs : List Res → Res
  | [] => .refuse
  | .refuse :: rs => altRs rs
  | r :: _ => r

/-- the spellings of the units in the order in which they are tried, spl/parser.rs:170-191 -/
def unitSpellings : List Str :=
  [c!"months", c!"month", c!"mon", c!"days", c!"day", c!"d", c!"hours", c!"hour", c!"hrs", c!"hr", c!"h",
    c!"minutes", c!"minute", c!"mins", c!"min", c!"m", c!"weeks", c!"week", c!"w7", c!"w0", c!"w",
    c!"seconds", c!"second", c!"secs", c!"sec", c!"s"]

/-- `time_unit`, spl/parser.rs:189-191, without the name of the unit -/
def timeUnitRs (low : Char → Str) (i : Str) : Res := altRs (unitSpellings.map fun t => tagNoCaseRs low t i)

end Verif
