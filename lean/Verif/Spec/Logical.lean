import Verif.Spec.Written
/-
How a condition of `where` may be written: comparisons, IN, calls, NOT, AND, OR and parentheses.
-/
namespace Verif.Spec
open Verif

/-- the operands joined from the left -/
def joinLeft (op : Str) : Expr → List Expr → Expr
  | e, [] => e
  | e, x :: xs => joinLeft op (.binary e op x) xs

/-- the words that are truth values -/
def trueWords : List Str := [c!"true", c!"t"]
def falseWords : List Str := [c!"false", c!"f"]

/-- how a constant is written on the right of a comparison: other words than truth values are texts -/
inductive LitText : Constant → Str → Prop
  | int {n : Int} : isI64 n → LitText (.int n) (showInt n)
  | str {s : Str} : Quotable s → '*' ∉ s → LitText (.str s) ('"' :: (s ++ c!"\""))
  | wild {s : Str} : Quotable s → '*' ∈ s → LitText (.wildcard s) ('"' :: (s ++ c!"\""))
  | star {w : Str} : WildWord w → LitText (.wildcard w) w
  | word {w : Str} : FieldText w → lower w ∉ trueWords → lower w ∉ falseWords → LitText (.str w) w
  | yes {w : Str} : lower w ∈ trueWords → LitText (.bool true) w
  | no {w : Str} : lower w ∈ falseWords → LitText (.bool false) w
  | dotted {v : Constant} {t : Str} : DottedText v t → LitText v t

/-- the right side of a comparison -/
inductive CondRight : Expr → Str → Prop
  | lit {v : Constant} {t : Str} : LitText v t → CondRight (.const v) t
  | call {f : Str} {es : List Expr} {g₁ g₂ s : Str} : IsName f → Blanks g₁ → Blanks g₂ → WrittenArgs es s →
      CondRight (.call f es) (f ++ '(' :: (g₁ ++ (s ++ (g₂ ++ c!")"))))

/-- the words that begin a time modifier -/
def timeWords : List Str := [c!"timeformat", c!"starttime", c!"endtime", c!"earliest", c!"latest"]

/-- a field that can begin a condition in `where`: not one of the time modifiers, and not beginning with
the letters of NOT -/
structure CondName (w : Str) : Prop where
  field : FieldText w
  notNot : lower (w.take 3) ≠ c!"not"
  notTime : lower w ∉ timeWords

mutual
/-- one condition -/
inductive CondTerm : Expr → Str → Prop
  | cmp {f op g₁ g₂ t : Str} {r : Expr} : CondName f → Op 6 op → Blanks g₁ → Blanks g₂ → CondRight r t →
      CondTerm (.binary (.const (.field f)) op r) (f ++ (g₁ ++ (op ++ (g₂ ++ t))))
  | isIn {f g₁ k g₂ g₃ g₄ s : Str} {vs : List Constant} : CondName f → Gap g₁ → lower k = c!"in" → Blanks g₂ → Blanks g₃ → Blanks g₄ →
      ValueList vs s → CondTerm (.fieldIn f (vs.map .const)) (f ++ (g₁ ++ (k ++ (g₂ ++ '(' :: (g₃ ++ (s ++ (g₄ ++ c!")")))))))
  | call {f : Str} {es : List Expr} {g₁ g₂ s : Str} : IsName f → lower (f.take 3) ≠ c!"not" → Blanks g₁ → Blanks g₂ →
      WrittenArgs es s → CondTerm (.call f es) (f ++ '(' :: (g₁ ++ (s ++ (g₂ ++ c!")"))))
  | paren {e : Expr} {g₁ g₂ s : Str} : Blanks g₁ → Blanks g₂ → CondOr e s → CondTerm e ('(' :: (g₁ ++ (s ++ (g₂ ++ c!")"))))
  | not {n g s : Str} {e : Expr} : lower n = c!"not" → Gap g → CondTerm e s →
      CondTerm (.unary c!"NOT" e) (n ++ g ++ s)
  | notParen {n g₁ g₂ s : Str} {e : Expr} : lower n = c!"not" → Blanks g₁ → Blanks g₂ → CondOr e s →
      CondTerm (.unary c!"NOT" e) (n ++ '(' :: (g₁ ++ (s ++ (g₂ ++ c!")"))))

/-- conditions joined by AND or by blanks -/
inductive CondAnds : List Expr → Str → Prop
  | one {e : Expr} {s : Str} : CondTerm e s → CondAnds [e] s
  | cons {e : Expr} {es : List Expr} {op g₁ g₂ s t : Str} : CondTerm e s → lower op = c!"and" → Gap g₁ → Gap g₂ →
      CondAnds es t → CondAnds (e :: es) (s ++ g₁ ++ op ++ g₂ ++ t)
  | next {e : Expr} {es : List Expr} {g s t : Str} : CondTerm e s → Gap g → lower (t.take 3) ≠ c!"and" →
      CondAnds es t → CondAnds (e :: es) (s ++ g ++ t)

/-- conjunctions joined by OR -/
inductive CondOrs : List Expr → Str → Prop
  | single {e : Expr} {es : List Expr} {s : Str} : CondAnds (e :: es) s → CondOrs [joinLeft c!"AND" e es] s
  | more {e : Expr} {es : List Expr} {os : List Expr} {op g₁ g₂ s t : Str} : CondAnds (e :: es) s → lower op = c!"or" →
      Gap g₁ → Gap g₂ → CondOrs os t → CondOrs (joinLeft c!"AND" e es :: os) (s ++ g₁ ++ op ++ g₂ ++ t)

/-- a whole condition: OR of AND of single conditions, both joined from the left -/
inductive CondOr : Expr → Str → Prop
  | mk {e : Expr} {es : List Expr} {s : Str} : CondOrs (e :: es) s → CondOr (joinLeft c!"OR" e es) s
end

end Verif.Spec
