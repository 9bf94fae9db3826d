import Verif.Spl.Ast
/-
C104: sizes of expressions.
-/
namespace Verif.Spec
open Verif

mutual
/-- the number of parts of an expression -/
def parts : Expr → Nat
  | .binary l _ r => 1 + parts l + parts r
  | .unary _ r => 1 + parts r
  | .call _ args => 1 + partsAll args
  | _ => 1

def partsAll : List Expr → Nat
  | [] => 0
  | e :: es => parts e + partsAll es
end

mutual
/-- how deep calls of functions are nested -/
def callDepth : Expr → Nat
  | .binary l _ r => max (callDepth l) (callDepth r)
  | .unary _ r => callDepth r
  | .call _ args => 1 + callDepthAll args
  | _ => 0

def callDepthAll : List Expr → Nat
  | [] => 0
  | e :: es => max (callDepth e) (callDepthAll es)
end

end Verif.Spec
