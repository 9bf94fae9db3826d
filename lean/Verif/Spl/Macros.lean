import Verif.Spl.Grammar
/-
Macro detection, /repo/src/spl/macros.rs, and macro substitution,
/repo/python/spl_transpiler/macros.py.
-/
namespace Verif
open P

/-- `MacroCall`, macros.rs:11-18 -/
structure MacroCall where
  name : Str
  args : List (Option Str × Str)
deriving DecidableEq, Repr

namespace Macro
open Lex Spl

/-- One argument, macros.rs:35-38: an optional `name=`, then the text of an expression. -/
def arg : G true (Option Str × Str) :=
  seq (opt (lift (post token (tag! "=")))) (recognize expr)

/-- Argument list, macros.rs:31-41 -/
def args : G true (List (Option Str × Str)) :=
  delim (ws (tag! "(")) (sepList0 (ws (tag! ",")) arg) (ws (tag! ")"))

/-- The text between the backticks, macros.rs:28-47 -/
def body : G true MacroCall :=
  ws (P.map (fun x => { name := x.1, args := x.2.getD [] }) (seq (ws (lift token)) (opt args)))

/-- A macro call with its backticks, macros.rs:26-49 -/
def mcall : G true MacroCall := delim (tag! "`") body (tag! "`")

/-- `take_until("`")`, macros.rs:25: the text before the next backtick; fails if there is none. -/
def upTo : G false Str := post (takeWhile0 fun x => x != '`') (peek (tag! "`"))

/-- `spl_macros`, macros.rs:22-53 -/
def macros : G false (List (Str × MacroCall) × Str) :=
  allConsuming (seq (many0 (seq upTo mcall)) (takeWhile0 fun x => x != '`'))

end Macro

/-- `detect_macros`, /repo/src/lib.rs:28-34 -/
def detectMacros (s : Str) : Option (List (Str × MacroCall) × Str) :=
  match Macro.macros.run Spl.fix s with
  | some ([], r) => some r
  | _ => none

/-- `MacroDefinition`, macros.py:16-18 -/
structure MacroDef where
  arguments : List Str
  definition : Str
deriving DecidableEq, Repr

/-- Letters, digits and underscore: names that stand for themselves in a regular expression. -/
def isWord (c : Char) : Bool := isAlnum c || c == '_'

/-- The text `$name$` looked for, macros.py:117 -/
def placeholder (name : Str) : Str := '$' :: name ++ ['$']

/-- `OCTDIGITS` of `re._parser` -/
def isOct (c : Char) : Bool := '0' ≤ c && c ≤ '7'

/-- the number that octal digits stand for -/
def octVal (ds : Str) : Nat := ds.foldl (fun n c => 8 * n + (c.toNat - 48)) 0

/-- The letters of `re._parser.ESCAPES` and the backslash. -/
def letterEscape (c : Char) : Option Char :=
  if c = '\\' then some '\\'
  else if c = 'n' then some '\n'
  else if c = 't' then some '\t'
  else if c = 'r' then some '\r'
  else if c = 'a' then some (Char.ofNat 7)
  else if c = 'b' then some (Char.ofNat 8)
  else if c = 'f' then some (Char.ofNat 12)
  else if c = 'v' then some (Char.ofNat 11)
  else none

/-- What follows `\g`: only the group 0 exists. -/
def groupZero : Str → Option Str
  | '<' :: '0' :: cs => match cs.dropWhile (· == '0') with
    | '>' :: r => some r
    | _ => none
  | _ => none

/-- What a backslash followed by the text stands for and the text after it, `re._parser.parse_template`
for a pattern without groups; `whole` is the text that was matched.  The octal escapes are `\0` with at
most two more octal digits and three octal digits up to `\377`.  Any other digit refers to a group that
does not exist, and another ASCII letter is an error, as is a backslash at the end. -/
def escapeStep (whole : Str) : Str → Option (Str × Str)
  | [] => none
  | 'g' :: cs => (groupZero cs).map (whole, ·)
  | '0' :: cs =>
    let ds := (cs.take 2).takeWhile isOct
    some ([Char.ofNat (octVal ds)], cs.drop ds.length)
  | c :: cs =>
    if '0' ≤ c && c ≤ '9' then
      if (c :: cs.take 2).all isOct && (cs.take 2).length == 2 && decide (octVal (c :: cs.take 2) ≤ 255) then
        some ([Char.ofNat (octVal (c :: cs.take 2))], cs.drop 2)
      else none
    else match letterEscape c with
      | some d => some ([d], cs)
      | none => if isAlnum c then none else some (['\\', c], cs)

/-- The loop of `parse_template`; the number bounds the length of the text. -/
def templateLoop (whole : Str) : Nat → Str → Option Str
  | _, [] => some []
  | 0, _ :: _ => none
  | n + 1, c :: cs =>
    if c = '\\' then match escapeStep whole cs with
      | some (d, r) => (templateLoop whole n r).map (d ++ ·)
      | none => none
    else (templateLoop whole n cs).map (c :: ·)

/-- Replacement template of Python's `re.sub` for a pattern without groups. -/
def reTemplate (whole v : Str) : Option Str := templateLoop whole v.length v

/-- `re.sub(f"\\${name}\\$", value, text)`, macros.py:116-118.  For a name of word characters the
pattern matches exactly the text `$name$`; other names are regular expressions and are handed
to the parameter `other`. -/
def reSub (other : Str → Str → Str → Option Str) (name value text : Str) : Option Str :=
  if name.all isWord then (reTemplate (placeholder name) value).map fun v => replaceAll (placeholder name) v text
  else other name value text

/-- Building a Python `dict` from pairs: a later pair replaces the value of an earlier one and
keeps its position. -/
def dictSet (k v : Str) : List (Str × Str) → List (Str × Str)
  | [] => [(k, v)]
  | (k', v') :: rest => if k' = k then (k', v) :: rest else (k', v') :: dictSet k v rest

/-- `dict(pairs)` -/
def pyDict (ps : List (Str × Str)) : List (Str × Str) :=
  ps.foldl (fun d p => dictSet p.1 p.2 d) []

/-- All names given, or `none`. -/
def allNamed : List (Option Str × Str) → Option (List (Str × Str))
  | [] => some []
  | (some n, v) :: rest => (allNamed rest).map ((n, v) :: ·)
  | (none, _) :: _ => none

/-- The `args` dictionary of macros.py:98-113; `none` is the `ValueError`. -/
def macroArgs (d : MacroDef) (args : List (Option Str × Str)) : Option (List (Str × Str)) :=
  if args.all (fun a => a.1.isNone) then
    if d.arguments.length = args.length then some (pyDict (d.arguments.zip (args.map Prod.snd)))
    else none
  else match allNamed args with
    | some ps => if d.arguments.length = args.length then some (pyDict ps) else none
    | none => none

/-- the loop of macros.py:115-118 -/
def substLoop (other : Str → Str → Str → Option Str) : List (Str × Str) → Str → Option Str
  | [], t => some t
  | (n, v) :: rest, t => match reSub other n v t with
    | none => none
    | some t' => substLoop other rest t'

/-- Text of one macro call, macros.py:90-118 -/
def expandCall (other : Str → Str → Str → Option Str) (defs : Str → Option MacroDef)
    (m : MacroCall) : Option Str :=
  match defs m.name with
  | none => none
  | some d =>
    if m.args.isEmpty then some d.definition
    else match macroArgs d m.args with
      | none => none
      | some ps => substLoop other ps d.definition

/-- the loop of macros.py:87-131 -/
def expandChunks (other : Str → Str → Str → Option Str) (defs : Str → Option MacroDef) :
    List (Str × MacroCall) → Str → Option Str
  | [], suffix => some suffix
  | (p, m) :: rest, suffix => match expandCall other defs m with
    | none => none
    | some t => match expandChunks other defs rest suffix with
      | none => none
      | some r => some (p ++ t ++ r)

/-- Drop from the end while `p` holds (`str.rstrip(chars)`). -/
def rstripWhile (p : Char → Bool) (s : Str) : Str := (s.reverse.dropWhile p).reverse

/-- White space for `str.strip()` (`Py_UNICODE_ISSPACE`). -/
def pySpace (c : Char) : Bool :=
  let n := c.toNat
  (9 ≤ n && n ≤ 13) || (28 ≤ n && n ≤ 32) || n == 0x85 || n == 0xA0 || n == 0x1680 || (0x2000 ≤ n && n ≤ 0x200A) ||
    n == 0x2028 || n == 0x2029 || n == 0x202F || n == 0x205F || n == 0x3000

/-- `.rstrip().rstrip("|").strip()`, macros.py:132 -/
def tidy (s : Str) : Str :=
  rstripWhile pySpace ((rstripWhile (· == '|') (rstripWhile pySpace s)).dropWhile pySpace)

/-- One round of `substitute_macros`, macros.py:85-132 -/
def expandOnce (other : Str → Str → Str → Option Str) (defs : Str → Option MacroDef) (code : Str) :
    Option Str :=
  match detectMacros code with
  | none => none
  | some (chunks, suffix) => (expandChunks other defs chunks suffix).map tidy

/-- `substitute_macros`, macros.py:84-142.  The function calls itself until the text no longer
changes; `fuel` is Python's recursion limit, exceeding it is an error. -/
def substituteMacros (other : Str → Str → Str → Option Str) (defs : Str → Option MacroDef) :
    Nat → Str → Option Str
  | 0, _ => none
  | fuel + 1, code => match expandOnce other defs code with
    | none => none
    | some q => if q = code then some q else substituteMacros other defs fuel q

end Verif
