/-
Text utilities.  A Rust `&str` / `String` is modelled by its list of characters
(Unicode scalar values).
-/
namespace Verif

/-- Model of Rust `String` / `&str`. -/
abbrev Str := List Char

open Lean in
/-- `c!"abc"` is the explicit list `['a','b','c']`. -/
syntax:max (name := charListLit) "c!" noWs str : term

open Lean in
macro_rules
  | `(c!$s:str) => do
    let elems ← s.getString.toList.mapM fun c => `($(Syntax.mkCharLit c))
    `(([$(elems.toArray),*] : List Char))

/-- ASCII lower-casing of one character (`char::to_ascii_lowercase`). -/
def lowerC (c : Char) : Char :=
  if 'A' ≤ c ∧ c ≤ 'Z' then Char.ofNat (c.toNat + 32) else c

/-- ASCII upper-casing of one character (`char::to_ascii_uppercase`). -/
def upperC (c : Char) : Char :=
  if 'a' ≤ c ∧ c ≤ 'z' then Char.ofNat (c.toNat - 32) else c

/-- `str::to_ascii_lowercase` -/
def lower (s : Str) : Str := s.map lowerC

/-- `str::to_ascii_uppercase` -/
def upper (s : Str) : Str := s.map upperC

/-- nom `multispace0/1` accept space, tab, carriage return and newline. -/
def isSpace (c : Char) : Bool := c == ' ' || c == '\t' || c == '\r' || c == '\n'

/-- ASCII digit, nom `digit1`. -/
def isDig (c : Char) : Bool := '0' ≤ c && c ≤ '9'

/-- ASCII alphanumeric, nom `alphanumeric1`. -/
def isAlnum (c : Char) : Bool :=
  ('0' ≤ c && c ≤ '9') || ('a' ≤ c && c ≤ 'z') || ('A' ≤ c && c ≤ 'Z')

/-- `stripPrefix? t s = some r` iff `s = t ++ r`. -/
def stripPrefix? : Str → Str → Option Str
  | [], s => some s
  | _ :: _, [] => none
  | t :: ts, c :: cs => if t = c then stripPrefix? ts cs else none

/-- Case-insensitive (ASCII) prefix removal; returns the matched text and the rest. -/
def stripPrefixCI? : Str → Str → Option (Str × Str)
  | [], s => some ([], s)
  | _ :: _, [] => none
  | t :: ts, c :: cs =>
    if lowerC t = lowerC c then
      match stripPrefixCI? ts cs with
      | some (m, r) => some (c :: m, r)
      | none => none
    else none

/-- Worker for `replaceAll`; the first argument bounds the number of steps. -/
def replaceAux (pat rep : Str) : Nat → Str → Str
  | 0, s => s
  | _ + 1, [] => []
  | n + 1, c :: cs =>
    match stripPrefix? pat (c :: cs) with
    | some r => rep ++ replaceAux pat rep n r
    | none => c :: replaceAux pat rep n cs

/-- Rust `str::replace(pat, rep)` for a non-empty `pat`: leftmost, non-overlapping. -/
def replaceAll (pat rep s : Str) : Str := replaceAux pat rep s.length s

/-- Rust `str::contains(pat)`. -/
def containsSub (pat : Str) : Str → Bool
  | [] => (stripPrefix? pat []).isSome
  | c :: cs => (stripPrefix? pat (c :: cs)).isSome || containsSub pat cs

/-- Rust `[String]::join(sep)`. -/
def joinWith (sep : Str) : List Str → Str
  | [] => []
  | [x] => x
  | x :: y :: ys => x ++ sep ++ joinWith sep (y :: ys)

/-- The ASCII digit of `d < 10`. -/
def digitC (d : Nat) : Char := Char.ofNat (48 + d)

/-- Worker of `showNat`. -/
def showNatAux : Nat → Nat → Str → Str
  | 0, _, acc => acc
  | f + 1, n, acc =>
    if n < 10 then digitC n :: acc else showNatAux f (n / 10) (digitC (n % 10) :: acc)

/-- Decimal text of a natural number (Rust `u64::to_string`). -/
def showNat (n : Nat) : Str := showNatAux (n + 1) n []

/-- Decimal text of an integer (Rust `i64::to_string`). -/
def showInt : Int → Str
  | .ofNat n => showNat n
  | .negSucc n => '-' :: showNat (n + 1)

/-- Value of a digit string. -/
def digitsVal (ds : Str) : Nat := ds.foldl (fun a c => a * 10 + (c.toNat - 48)) 0

/-- Rust `split_at`-style split on a single character: `str::split(sep)`. -/
def splitOnC (sep : Char) : Str → List Str
  | [] => [[]]
  | c :: cs =>
    if c = sep then [] :: splitOnC sep cs
    else match splitOnC sep cs with
      | [] => [[c]]
      | x :: xs => (c :: x) :: xs

end Verif
