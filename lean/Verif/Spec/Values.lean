import Verif.Spec.Shape
/-
How words, numbers, quoted texts and other constants may be written.
-/
namespace Verif.Spec
open Verif

/-- a letter, digit or underscore -/
def isNameChar (c : Char) : Bool := isAlnum c || c == '_'

/-- a plain name: letters, digits and underscores, not beginning with a digit, and none of the reserved words -/
structure IsName (w : Str) : Prop where
  ne : w ≠ []
  chars : ∀ c ∈ w, isNameChar c = true
  head : ∀ c s, w = c :: s → isDig c = false
  notReserved : ¬ Reserved w

/-- a name that is not read as a truth value -/
structure IsField (w : Str) : Prop where
  name : IsName w
  notT : w ≠ c!"t"
  notF : w ≠ c!"f"

/-- a field: names separated by dots -/
inductive FieldText : Str → Prop
  | one {w : Str} : IsField w → FieldText w
  | dot {w p : Str} : IsField w → FieldText p → FieldText (w ++ '.' :: p)

/-- blanks between words -/
structure Gap (w : Str) : Prop where
  ne : w ≠ []
  blank : ∀ c ∈ w, c = ' ' ∨ c = '\t' ∨ c = '\r' ∨ c = '\n'

/-- zero or more blanks -/
def Blanks (g : Str) : Prop := g = [] ∨ Gap g

/-- Text that can stand between double quotes: a backslash hides the character after it. -/
inductive QuotedBody : Str → Prop
  | nil : QuotedBody []
  | esc (c : Char) {s : Str} : QuotedBody s → QuotedBody ('\\' :: c :: s)
  | plain {c : Char} {s : Str} : c ≠ '"' → c ≠ '\\' → QuotedBody s → QuotedBody (c :: s)

/-- a quoted text that is kept as it is: not empty and without leading blanks -/
structure Quotable (s : Str) : Prop where
  body : QuotedBody s
  ne : s ≠ []
  head : ∀ c t, s = c :: t → c ∉ [' ', '\t', '\r', '\n']

/-- the spellings of time units and what they stand for -/
def unitSpellings : List (Str × Str) := [
  (c!"seconds", c!"seconds"), (c!"second", c!"seconds"), (c!"secs", c!"seconds"), (c!"sec", c!"seconds"),
  (c!"s", c!"seconds"), (c!"minutes", c!"minutes"), (c!"minute", c!"minutes"), (c!"mins", c!"minutes"),
  (c!"min", c!"minutes"), (c!"m", c!"minutes"), (c!"hours", c!"hours"), (c!"hour", c!"hours"),
  (c!"hrs", c!"hours"), (c!"hr", c!"hours"), (c!"h", c!"hours"), (c!"days", c!"days"), (c!"day", c!"days"),
  (c!"d", c!"days"), (c!"weeks", c!"weeks"), (c!"week", c!"weeks"), (c!"w7", c!"weeks"), (c!"w0", c!"weeks"),
  (c!"w", c!"weeks"), (c!"months", c!"months"), (c!"month", c!"months"), (c!"mon", c!"months")]

/-- a word with a star in it, beginning with a star, a letter or an underscore -/
structure WildWord (w : Str) : Prop where
  star : '*' ∈ w
  chars : ∀ c ∈ w, isNameChar c = true ∨ c = '*' ∨ c = '-'
  head : ∀ c t, w = c :: t → isDig c = false ∧ c ≠ '-'

/-- one or more decimal digits -/
structure IsDigits (w : Str) : Prop where
  ne : w ≠ []
  digits : ∀ c ∈ w, isDig c = true

/-- one of the numbers of a network address: one to three digits -/
structure IsByte (w : Str) : Prop extends IsDigits w where
  short : w.length ≤ 3

/-- a network address -/
inductive Address : Str → Prop
  | mk {a b c d : Str} : IsByte a → IsByte b → IsByte c → IsByte d → Address (a ++ '.' :: (b ++ '.' :: (c ++ '.' :: d)))

/-- numbers with a decimal point and network addresses -/
inductive DottedText : Constant → Str → Prop
  | decimal (neg : Bool) {w f : Str} : IsDigits w → IsDigits f →
      DottedText (.double ⟨neg, w, f⟩) ((if neg then c!"-" else []) ++ (w ++ '.' :: f))
  | address {a : Str} : Address a → DottedText (.str a) a
  | network {a b : Str} : Address a → IsByte b → DottedText (.ipv4cidr (a ++ '/' :: b)) (a ++ '/' :: b)

/-- an amount of time: a number with or without a sign, and a unit -/
inductive SpanText : TimeSpan → Str → Prop
  | plain {ds m s u : Str} : IsDigits ds → digitsVal ds < 2 ^ 63 → (s, u) ∈ unitSpellings → lower m = s →
      SpanText ⟨digitsVal ds, u⟩ (ds ++ m)
  | plus {ds m s u : Str} : IsDigits ds → digitsVal ds < 2 ^ 63 → (s, u) ∈ unitSpellings → lower m = s →
      SpanText ⟨digitsVal ds, u⟩ ('+' :: (ds ++ m))
  | minus {ds m s u : Str} : IsDigits ds → digitsVal ds < 2 ^ 63 → (s, u) ∈ unitSpellings → lower m = s →
      SpanText ⟨-(digitsVal ds : Int), u⟩ ('-' :: (ds ++ m))

/-- the part of a time specifier before the at sign; one unit needs no number -/
inductive ShiftText : Option TimeSpan → Str → Prop
  | none : ShiftText none []
  | amount {x : TimeSpan} {t : Str} : SpanText x t → ShiftText (some x) t
  | one {m s u : Str} : (s, u) ∈ unitSpellings → lower m = s → ShiftText (some ⟨1, u⟩) m
  | minusOne {m s u : Str} : (s, u) ∈ unitSpellings → lower m = s → ShiftText (some ⟨-1, u⟩) ('-' :: m)

/-- the part after the unit to snap to -/
inductive AfterText : Option TimeSpan → Str → Prop
  | none : AfterText none []
  | amount {x : TimeSpan} {t : Str} : SpanText x t → AfterText (some x) t

/-- A time specifier with an at sign.  The unit to snap to is the longest possible: `@w7d` does not mean seven days after
the beginning of the week. -/
inductive SnapText : SnapTime → Str → Prop
  | mk {a m s u b : Str} {x y : Option TimeSpan} : ShiftText x a → (s, u) ∈ unitSpellings → lower m = s → AfterText y b →
      (s = c!"w" → ∀ c t, b = c :: t → c ≠ '0' ∧ c ≠ '7') → SnapText ⟨x, u, y⟩ (a ++ '@' :: (m ++ b))

/-- the text is not a time specifier -/
def NotTime (s : Str) : Prop := ∀ x, ¬ SnapText x s

/-- how a constant is written as an operand of an expression or as the value of an option -/
inductive OptValue : Constant → Str → Prop
  | field {w : Str} : FieldText w → OptValue (.field w) w
  | yes : OptValue (.bool true) c!"t"
  | no : OptValue (.bool false) c!"f"
  | int {n : Int} : isI64 n → OptValue (.int n) (showInt n)
  | str {s : Str} : Quotable s → NotTime s → '*' ∉ s → OptValue (.str s) ('"' :: (s ++ c!"\""))
  | wild {s : Str} : Quotable s → NotTime s → '*' ∈ s → OptValue (.wildcard s) ('"' :: (s ++ c!"\""))
  | star {w : Str} : WildWord w → OptValue (.wildcard w) w
  | span {n : Nat} {m s u : Str} : n < 2 ^ 63 → (s, u) ∈ unitSpellings → lower m = s →
      OptValue (.timeSpan ⟨n, u⟩) (showNat n ++ m)
  | dotted {v : Constant} {t : Str} : DottedText v t → OptValue v t
  | snap {x : SnapTime} {s : Str} : SnapText x s → OptValue (.snapTime x) ('"' :: (s ++ c!"\""))

theorem NotTime.of_at {s : Str} (h : '@' ∉ s) : NotTime s := by
  rintro _ ⟨⟩
  exact h (by simp)

/-- a comma with or without blanks around it, or blanks alone -/
inductive ListSep : Str → Prop
  | comma {g₁ g₂ : Str} : Blanks g₁ → Blanks g₂ → ListSep (g₁ ++ ',' :: g₂)
  | gap {g : Str} : Gap g → ListSep g

/-- constants separated by commas or blanks -/
inductive ValueList : List Constant → Str → Prop
  | nil : ValueList [] []
  | one {v : Constant} {t : Str} : OptValue v t → ValueList [v] t
  | cons {v v' : Constant} {vs : List Constant} {t g s : Str} : OptValue v t → ListSep g → ValueList (v' :: vs) s →
      ValueList (v :: v' :: vs) (t ++ (g ++ s))

end Verif.Spec
