import Verif.Spec.RowsFragment
/-
Specification: searches with bare terms.
-/
namespace Verif.Spec

/-- The text of a bare term: a word, a quoted phrase or a number. -/
def termText : Constant → Option Str
  | .field w => some w
  | .str s => some s
  | .int n => some (showInt n)
  | _ => none

/-- Characters between the terms of an event: all of ASCII but letters and digits (the default segmentation, minor and major
breakers together). -/
def isBreaker (c : Char) : Bool := decide (c.toNat < 128) && !c.isAlphanum

/-- A term ends here, or begins. -/
def BreakBefore (a : Str) : Prop := ∀ c, a.getLast? = some c → isBreaker c = true

@[inherit_doc BreakBefore] def BreakAfter (b : Str) : Prop := ∀ c, b.head? = some c → isBreaker c = true

/-- Is the text one of the terms of an event, in any letter case? -/
def HasTerm (w t : Str) : Prop := ∃ a u b, t = a ++ u ++ b ∧ lower u = lower w ∧ BreakBefore a ∧ BreakAfter b

/-- Does the text occur in an event, in any letter case? -/
def HasText (w t : Str) : Prop := ∃ a u b, t = a ++ u ++ b ∧ lower u = lower w

/-- Is a search condition true of an event, given which terms are in it? -/
def SearchHolds (has : Str → Prop) (S : Sem) (row : Event) : Expr → Prop
  | .const k => ∃ w, termText k = some w ∧ has w
  | .binary l op r =>
    if op = c!"AND" then SearchHolds has S row l ∧ SearchHolds has S row r
    else if op = c!"OR" then SearchHolds has S row l ∨ SearchHolds has S row r
    else splSearch S row (.binary l op r) = some true
  | .unary _ r => ¬ SearchHolds has S row r
  | e => splSearch S row e = some true

/-- Terms whose characters mean the same in a Python text and in a pattern of SQL. -/
def termOk : Constant → Bool
  | .field w => w != c!"index" && PlainPat w
  | .str s => s != [] && PlainPat s
  | .int _ => true
  | _ => false

/-- Conditions of a search with bare terms. -/
def TermFrag (neg : Bool) : Expr → Bool
  | .const k => termOk k
  | .binary l op r => if op == c!"AND" || op == c!"OR" then TermFrag neg l && TermFrag neg r else SearchFrag false (.binary l op r)
  | .unary op r => neg && op == c!"NOT" && TermFrag neg r
  | e => SearchFrag false e

/-- the bare terms of a condition -/
def bareTerms : Expr → List Str
  | .const k => (termText k).toList
  | .binary l op r => if op == c!"AND" || op == c!"OR" then bareTerms l ++ bareTerms r else []
  | .unary _ r => bareTerms r
  | _ => []

/-- Every comparison in the condition is decided on the row. -/
def TermsDecided (S : Sem) (row : Event) : Expr → Bool
  | .const _ => true
  | .binary l op r => if op == c!"AND" || op == c!"OR" then TermsDecided S row l && TermsDecided S row r else Decided S row (.binary l op r)
  | .unary _ r => TermsDecided S row r
  | e => Decided S row e

end Verif.Spec
