import Verif.Spl.Ast
/-
How long an expression is: the characters of its names, operators and constants, with one more for each part.
-/
namespace Verif.Spec
open Verif

/-- an amount of time -/
def spanLen : Option TimeSpan → Nat
  | none => 0
  | some t => (showInt t.value).length + t.scale.length

/-- The decimal numeral of a constant as it is written, without sign -/
def constLen : Constant → Nat
  | .null => 0
  | .bool _ => 0
  | .int n => (showInt n).length
  | .double d => d.whole.length + d.frac.length
  | .str s => s.length
  | .snapTime t => spanLen t.span + spanLen t.snapOffset
  | .timeSpan t => spanLen (some t)
  | .field s => s.length
  | .wildcard s => s.length
  | .variable s => s.length
  | .ipv4cidr s => s.length

mutual
/-- The length of an expression.  `f IN (a, b)` counts as `f=a OR f=b`, which it stands for. -/
def exprLen : Expr → Nat
  | .const k => 1 + constLen k
  | .binary l s r => 1 + s.length + exprLen l + exprLen r
  | .unary s r => 1 + s.length + exprLen r
  | .call f es => 1 + f.length + argsLen es
  | .fieldIn f es => 1 + es.length * f.length + argsLen es
  | _ => 1

/-- the length of the arguments of a call -/
def argsLen : List Expr → Nat
  | [] => 0
  | e :: es => exprLen e + argsLen es
end

mutual
/-- no call of the function in the expression -/
def noCall (f : Str) : Expr → Bool
  | .binary l _ r => noCall f l && noCall f r
  | .unary _ r => noCall f r
  | .call g es => decide (g ≠ f) && noCalls f es
  | _ => true

/-- the same for each of the expressions -/
def noCalls (f : Str) : List Expr → Bool
  | [] => true
  | e :: es => noCall f e && noCalls f es
end

/-- no call of the function in the arguments of a statistic -/
def statFree (f : Str) : Expr → Bool
  | .call _ es => noCalls f es
  | .alias (.call _ es) _ => noCalls f es
  | _ => false

mutual
/-- no call of the function in the expressions of the command or of the searches in it -/
def withoutCall (f : Str) : Command → Bool
  | .eval as => as.all fun a => noCall f a.2
  | .where_ e => noCall f e
  | .search e => noCall f e
  | .stats _ fs _ _ => fs.all (statFree f)
  | .tstats _ fs _ _ w _ _ => fs.all (statFree f) && w.all (noCall f)
  | .join _ _ cs => withoutCalls f cs
  | .multiSearch ps => searchesWithout f ps
  | _ => true

/-- the same for each of the commands -/
def withoutCalls (f : Str) : List Command → Bool
  | [] => true
  | c :: cs => withoutCall f c && withoutCalls f cs

/-- the same for each of the searches -/
def searchesWithout (f : Str) : List (List Command) → Bool
  | [] => true
  | p :: ps => withoutCalls f p && searchesWithout f ps
end

end Verif.Spec
