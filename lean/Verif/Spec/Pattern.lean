import Verif.Basic.Text
/-
Specification: Java regular expressions, as far as the conversion functions use them: an optional `(?i)`,
an optional `^`, then single characters, `.`, `\d`, `\w` and bracketed lists of characters, each with `?`, `*`,
`+` or nothing, groups in parentheses, with or without a name, that are not nested and not repeated, and `$`.  Repetitions are
greedy and give characters back one by one.
-/
namespace Verif.Spec
open Verif

/-- the characters one item stands for -/
inductive Chars
  | digit
  | word
  | any
  | these (cs : Str)
deriving DecidableEq

/-- the parts of a pattern -/
inductive Part
  | some (cs : Chars) (least : Nat) (most : Option Nat)
  | opens
  | closes
  | ends
deriving DecidableEq

/-- a pattern -/
structure Pattern where
  anyCase : Bool
  atStart : Bool
  parts : List Part
deriving DecidableEq

/-- is a character one of those an item stands for? -/
def Chars.has (anyCase : Bool) : Chars → Char → Bool
  | .digit, c => isDig c
  | .word, c => isAlnum c && c.toNat < 128 || c == '_'
  | .any, c => !(['\n', '\r', '\u0085', '\u2028', '\u2029'].contains c)
  | .these cs, c => cs.contains c || (anyCase && (cs.map lowerC).contains (lowerC c))

/-- how often an item may be repeated, and what follows -/
def quantity : Str → (Nat × Option Nat) × Str
  | '?' :: s => ((0, some 1), s)
  | '*' :: s => ((0, none), s)
  | '+' :: s => ((1, none), s)
  | s => ((1, some 1), s)

/-- the special characters outside brackets -/
def special (c : Char) : Bool := (c!"\\^$.|?*+()[]{}").contains c

/-- one item, and what follows -/
def readItem : Str → Option (Chars × Str)
  | '\\' :: 'd' :: s => some (.digit, s)
  | '\\' :: 'w' :: s => some (.word, s)
  | '\\' :: c :: s => if special c then some (.these [c], s) else none
  | '.' :: s => some (.any, s)
  | '[' :: s =>
    let cs := s.takeWhile isAlnum
    match s.dropWhile isAlnum with
    | ']' :: r => if cs = [] then none else some (.these cs, r)
    | _ => none
  | c :: s => if special c then none else some (.these [c], s)
  | [] => none

/-- the name in angle brackets at the front of a text, and what follows -/
def groupName (ok : Str → Bool) (s : Str) : Option (Option Str × Str) :=
  match s.dropWhile (· != '>') with
  | '>' :: r => if ok (s.takeWhile (· != '>')) then some (some (s.takeWhile (· != '>')), r) else none
  | _ => none

/-- Names of groups in Java: letters and digits, a letter first. -/
def javaName (n : Str) : Bool := n.all (fun c => isAlnum c && c.toNat < 128) && n.head?.any fun c => !isDig c

/-- Names of groups in PCRE: letters, digits and underscores, not a digit first. -/
def pcreName (n : Str) : Bool := n.all (fun c => isAlnum c && c.toNat < 128 || c == '_') && n.head?.any fun c => !isDig c

/-- What follows the opening parenthesis of a group in a Java pattern: a group is named by `(?<n>`. -/
def javaOpen (s : Str) : Option (Option Str × Str) :=
  match s with
  | '?' :: '<' :: r => groupName javaName r
  | '?' :: _ => none
  | s => some (none, s)

/-- The same in a pattern of SPL (PCRE): a group is named by `(?<n>` or by `(?P<n>`. -/
def pcreOpen (s : Str) : Option (Option Str × Str) :=
  match s with
  | '?' :: '<' :: r => groupName pcreName r
  | '?' :: 'P' :: '<' :: r => groupName pcreName r
  | '?' :: _ => none
  | s => some (none, s)

/-- The parts of a pattern and the names of its groups; the number bounds how many parts there are. -/
def readParts (opening : Str → Option (Option Str × Str)) : Nat → Str → Option (List Part × List (Option Str))
  | _, [] => some ([], [])
  | 0, _ :: _ => none
  | n + 1, '(' :: s => (opening s).bind fun x => (readParts opening n x.2).map fun y => (.opens :: y.1, x.1 :: y.2)
  | n + 1, ')' :: s =>
    if (quantity s).1 = (1, some 1) then (readParts opening n s).map fun y => (.closes :: y.1, y.2) else none
  | n + 1, '$' :: s => (readParts opening n s).map fun y => (.ends :: y.1, y.2)
  | n + 1, s =>
    match readItem s with
    | none => none
    | some (cs, r) =>
      (readParts opening n (quantity r).2).map fun y => (.some cs (quantity r).1.1 (quantity r).1.2 :: y.1, y.2)

/-- are the groups closed and not nested? -/
def groupsOk : Bool → List Part → Bool
  | o, [] => !o
  | o, .opens :: ps => !o && groupsOk true ps
  | o, .closes :: ps => o && groupsOk false ps
  | o, _ :: ps => groupsOk o ps

/-- a pattern written as text, and the names of its groups -/
def readNamed (opening : Str → Option (Option Str × Str)) (s : Str) : Option (Pattern × List (Option Str)) :=
  let i := (c!"(?i)").isPrefixOf s
  let s := if i then s.drop 4 else s
  let a := s.head? = some '^'
  let s := if a then s.drop 1 else s
  match readParts opening s.length s with
  | some ps => if groupsOk false ps.1 then some (⟨i, a, ps.1⟩, ps.2) else none
  | none => none

/-- a pattern of Java written as text -/
def readPattern (s : Str) : Option Pattern := (readNamed javaOpen s).map Prod.fst

/-- where `$` matches: at the end of the text and before a line end there -/
def atEnd (s : Str) : Bool := s == [] || s == ['\n'] || s == ['\r'] || s == ['\r', '\n'] || s == ['\u0085'] ||
  s == ['\u2028'] || s == ['\u2029']

/-- the first success among `n`, `n - 1`, ..., `least` -/
def firstDown {α : Type} (f : Nat → Option α) (least : Nat) : Nat → Option α
  | 0 => if least = 0 then f 0 else none
  | n + 1 => if n + 1 < least then none else (f (n + 1)).or (firstDown f least n)

/-- how many of the first characters an item can take -/
def reach (p : Char → Bool) (most : Option Nat) (s : Str) : Nat :=
  let n := (s.takeWhile p).length
  match most with
  | none => n
  | some m => min m n

/-- Matches the parts at the front of a text: the texts of the groups.  `cur` is the text so far of the group that
is open. -/
def matchHere (anyCase : Bool) : List Part → Str → List Str → Str → Option (List Str)
  | [], _, groups, _ => some groups
  | .opens :: ps, _, groups, s => matchHere anyCase ps [] groups s
  | .closes :: ps, cur, groups, s => matchHere anyCase ps [] (groups ++ [cur]) s
  | .ends :: ps, cur, groups, s => if atEnd s then matchHere anyCase ps cur groups s else none
  | .some cs least most :: ps, cur, groups, s =>
    firstDown (fun k => matchHere anyCase ps (cur ++ s.take k) groups (s.drop k)) least (reach (cs.has anyCase) most s)

/-- The first match in a text. -/
def findMatch (p : Pattern) : Str → Option (List Str)
  | [] => matchHere p.anyCase p.parts [] [] []
  | c :: s => (matchHere p.anyCase p.parts [] [] (c :: s)).or (if p.atStart then none else findMatch p s)

/-- `regexp_extract(text, pattern, k)`: the text of group `k` of the first match, the empty text if there is no match;
`none` if the pattern is outside the fragment or has no such group. -/
def extractGroup (pattern : Str) (k : Nat) (text : Str) : Option Str :=
  match readPattern pattern with
  | none => none
  | some p =>
    if 1 ≤ k ∧ k ≤ (p.parts.filter (· == .opens)).length then
      some (match findMatch p text with
        | none => []
        | some gs => gs.getD (k - 1) [])
    else none

end Verif.Spec
