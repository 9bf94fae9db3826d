import Verif.Tr.Expr
/-
How many calls of `to_spark_expr` (/repo/src/pyspark/transpiler/expr.rs:18-184) the translation of an expression makes.

The functions follow `exprTr` and the functions it uses; whether a step succeeds is taken from these.  Arguments come with what one translation of them
costs.  Not counted: copies of the expression (`self.clone()`, expr.rs:20, copies all of it at every call).
-/
namespace Verif

/-- `map_args`, functions/mod.rs:78-84: in order, up to the first that fails -/
def mapCost : List Arg → List Nat → Nat
  | a :: as, n :: ns => n + if a.col.isSome then mapCost as ns else 0
  | _, _ => 0

/-- `_function_args!`, functions/mod.rs:86-110: numbers and texts are read off the argument without a translation, mod.rs:11-67 -/
def paramsCost : List PK → List Arg → List Nat → Nat
  | p :: ps, a :: as, n :: ns =>
    (if p = .expr then n else 0) + if (bindParam p a).isSome then paramsCost ps as ns else 0
  | _, _, _ => 0

/-- `function_transform!`, functions/mod.rs:112-137 -/
def FnSpec.cost (f : FnSpec) (args : List Arg) (ns : List Nat) : Nat :=
  paramsCost f.params args ns +
    if (bindParams f.params args).isSome ∧ f.rest = .mapped then mapCost (args.drop f.params.length) (ns.drop f.params.length) else 0

/-- `eval_fn_bare`, eval_fns.rs:216-693 -/
def bareCost (name : Str) (args : List Arg) (ns : List Nat) : Nat :=
  match lookupFn name evalTable with
  | some f => f.cost args ns
  | none => if name ∈ evalUnsupported then 0 else mapCost args ns

/-- `eval_fn_runtime`, eval_fns.rs:187-214 -/
def runtimeCost (name : Str) (args : List Arg) (ns : List Nat) : Nat :=
  if name = c!"cidrmatch" then cidrmatchRuntime.cost args ns else mapCost args ns

/-- `eval_fn`, eval_fns.rs:174-185 -/
def callCost (m : Mode) (name : Str) (args : List Arg) (ns : List Nat) : Nat :=
  match m with
  | .disallow => bareCost name args ns
  | .require => runtimeCost name args ns
  | .allow => runtimeCost name args ns + if (evalFnRuntime name args).isSome then 0 else bareCost name args ns

/-- the `Binary` arm, expr.rs:22-67, from what the operands cost -/
def binCost (left : Expr) (symbol : Str) (right : Expr) (l : Option PE) (nl nr : Nat) : Nat :=
  match right with
  | .const (.wildcard _) => nl
  | .const (.ipv4cidr _) =>
    match left with
    | .const (.field _) => if mapOp symbol = c!"==" then 0 else nl + if l.isSome then nr else 0
    | _ => nl + if l.isSome then nr else 0
  | _ => nl + if l.isSome then nr else 0

mutual
/-- calls of `to_spark_expr`, this one included -/
def exprCost (m : Mode) : Expr → Nat
  | .binary l s r => 1 + binCost l s r (exprTr m l) (exprCost m l) (exprCost m r)
  | .unary s r => 1 + if s = c!"NOT" then exprCost m r else 0
  | .call name args => 1 + callCost m name (argsTr m args) (argsCost m args)
  | _ => 1

/-- what one translation of each argument costs -/
def argsCost (m : Mode) : List Expr → List Nat
  | [] => []
  | e :: es => exprCost m e :: argsCost m es
end

end Verif
