import Verif.Spec.Meaning
/-
Specification: the conversions documented for the command `convert` (head comment of
/repo/src/functions/convert_fns.rs, comments in /repo/src/functions/shared.rs).
-/
namespace Verif.Spec
open Verif

/-- a positive number as text: `12`, `1.5` or `.5` -/
def numText (w f : Str) : Str := if f = [] then w else w ++ '.' :: f

/-- is `w.f` a number? -/
def Numerals (w f : Str) : Prop := (∀ c ∈ w, isDig c = true) ∧ (∀ c ∈ f, isDig c = true) ∧ (w ≠ [] ∨ f ≠ [])

/-- how many kilobytes one unit is; the letter in either case -/
def kilobytes (u : Char) : Option Rat :=
  if u = 'k' ∨ u = 'K' then some 1
  else if u = 'm' ∨ u = 'M' then some 1024
  else if u = 'g' ∨ u = 'G' then some 1048576
  else none

/-- The primitive operations are the usual ones on the values the conversions meet. -/
structure Usual (S : Sem) : Prop where
  text : ∀ s, S.text (.str s) = some s
  upper : ∀ s, S.prim .upper [.str s] = .str (upper s)
  number : ∀ w f, Numerals w f → S.prim .toNumber [.str (numText w f)] = .num (numVal w f)
  noNumber : S.prim .toNumber [.str []] = .null
  noNumber' : S.prim .toNumber [.null] = .null
  replace : ∀ s, S.prim .regexReplace [.str s, .str c!",", .str []] = .str (s.filter (· ≠ ','))
  eq : ∀ a b : Str, S.cmp .eq (.str a) (.str b) = some (decide (a = b))
  mul : ∀ a b : Rat, S.arith .mul (.num a) (.num b) = .num (a * b)
  mulNull : ∀ b : Rat, S.arith .mul .null (.num b) = .null

end Verif.Spec
