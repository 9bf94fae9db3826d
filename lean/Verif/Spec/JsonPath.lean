import Verif.Basic.Text
/-
Specification: paths into JSON texts, as written in SPL (`spath` command) and in Spark (`get_json_object`).
-/
namespace Verif.Spec
open Verif

/-- A step into a JSON value: the value of a key, an element of an array (the first one has index 0), or all elements. -/
inductive PathStep
  | key (k : Str)
  | index (n : Nat)
  | every
deriving DecidableEq, Repr

/-- the parts of a text between dots -/
def dotParts : Str → List Str
  | [] => [[]]
  | c :: cs =>
    if c = '.' then [] :: dotParts cs
    else
      match dotParts cs with
      | p :: ps => (c :: p) :: ps
      | [] => [[c]]

/-- Indexes in brackets: `all` stands for all elements.  `cur` is the text so far in a bracket that is open. -/
def indexes (opening closing : Char) (all : Str) : Option Str → Str → Option (List PathStep)
  | none, [] => some []
  | none, c :: cs => if c = opening then indexes opening closing all (some []) cs else none
  | some _, [] => none
  | some w, c :: cs =>
    if c = closing then
      (if w = all then some .every else if w ≠ [] ∧ w.all isDig then some (.index (w.foldl (fun n d => 10 * n + (d.toNat - 48)) 0)) else none).bind
        fun s => (indexes opening closing all none cs).map (s :: ·)
    else indexes opening closing all (some (w ++ [c])) cs

/-- A key with indexes behind it. -/
def keyed (opening closing : Char) (all : Str) (bad : Str) (part : Str) : Option (List PathStep) :=
  let k := part.takeWhile (· != opening)
  if k = [] ∨ k.any bad.contains then none
  else (indexes opening closing all none (part.dropWhile (· != opening))).map (.key k :: ·)

/-- the steps of all parts -/
def allSteps (f : Str → Option (List PathStep)) : List Str → Option (List PathStep)
  | [] => some []
  | p :: ps => (f p).bind fun a => (allSteps f ps).map (a ++ ·)

/-- A path in SPL: keys with dots between them, `{n}` behind a key for an element of an array and `{}` for all of
them (SPL reference, `spath`).  XML attributes (`@`) are outside the fragment. -/
def splPath (p : Str) : Option (List PathStep) := allSteps (keyed '{' '}' [] ['}', '@']) (dotParts p)

/-- A path in Spark: `$`, then `.key`, `[n]` and `[*]` (JsonPathParser).  Quoted keys and keys with an asterisk are outside
the fragment. -/
def sparkPath (p : Str) : Option (List PathStep) :=
  match p with
  | '$' :: cs =>
    match dotParts cs with
    | [] => none
    | f :: ps => (indexes '[' ']' ['*'] none f).bind fun a => (allSteps (keyed '[' ']' ['*'] ['*']) ps).map (a ++ ·)
  | _ => none

end Verif.Spec
