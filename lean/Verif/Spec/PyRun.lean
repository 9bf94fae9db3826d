import Verif.Spec.Program
/-
Specification: what a Python program of assignments and a final expression computes.  Written from the Python language reference
(4.2 naming and binding, 6.14 lambda, 6.3.4 calls).  What the objects do is a parameter.
-/
namespace Verif.Spec

/-- What Python objects do; `none` is an exception.  `fn` makes an object of a function. -/
structure PyOps (V : Type) where
  const : Str → V
  num : Str → Str → V
  str : Str → V
  list : List V → V
  dict : List V → Option V
  fn : (List V → Option V) → V
  attr : V → Str → Option V
  call : V → List V → List (Str × V) → Option V
  inv : V → Option V
  neg : V → Option V
  bin : Str → V → V → Option V

/-- the values of variables -/
abbrev PyEnv (V : Type) := Str → Option V

/-- bind a variable -/
def PyEnv.set {V : Type} (r : PyEnv V) (n : Str) (v : V) : PyEnv V := fun m => if m = n then some v else r m

/-- no variables -/
def PyEnv.none {V : Type} : PyEnv V := fun _ => Option.none

/-- bind the parameters of a function -/
def PyEnv.binds {V : Type} (r : PyEnv V) : List Str → List V → PyEnv V
  | p :: ps, v :: vs => (PyEnv.binds r ps vs).set p v
  | _, _ => r

/-- the constants, which are no variables -/
def constNames : List Str := [c!"None", c!"True", c!"False"]

/-- Where a name is looked up: among the parameters of the functions around it, then among the variables of the block, then among
the global ones. -/
def lookName {V : Type} (O : PyOps V) (g l p : PyEnv V) (n : Str) : Option V :=
  if n ∈ constNames then some (O.const n) else (p n).or ((l n).or (g n))

mutual
/-- The value of an expression in a block with the variables `l`, with the global variables `g`, in functions with the parameters
`p`.  The variables of the block are not seen inside a function, unless they are the global ones. -/
def evalPy {V : Type} (O : PyOps V) (g l p : PyEnv V) : PyE → Option V
  | .name n => lookName O g l p n
  | .num w f => some (O.num w f)
  | .str s => some (O.str s)
  | .attr e f => (evalPy O g l p e).bind fun v => O.attr v f
  | .call f as =>
    match evalPy O g l p f, evalPyArgs O g l p as with
    | some v, some (vs, ks) => O.call v vs ks
    | _, _ => none
  | .kwarg _ _ => none
  | .list es => (evalPyList O g l p es).map O.list
  | .dict es => (evalPyList O g l p es).bind O.dict
  | .inv e => (evalPy O g l p e).bind O.inv
  | .neg e => (evalPy O g l p e).bind O.neg
  | .bin op a b =>
    match evalPy O g l p a, evalPy O g l p b with
    | some v, some w => O.bin op v w
    | _, _ => none
  | .lam ps e => some (O.fn fun vs => if vs.length = ps.length then evalPy O g PyEnv.none (p.binds ps vs) e else none)
/-- positional and keyword arguments -/
def evalPyArgs {V : Type} (O : PyOps V) (g l p : PyEnv V) : List PyE → Option (List V × List (Str × V))
  | [] => some ([], [])
  | .kwarg n e :: es =>
    match evalPy O g l p e, evalPyArgs O g l p es with
    | some v, some (vs, ks) => some (vs, (n, v) :: ks)
    | _, _ => none
  | e :: es =>
    match evalPy O g l p e, evalPyArgs O g l p es with
    | some v, some (vs, ks) => some (v :: vs, ks)
    | _, _ => none
/-- items -/
def evalPyList {V : Type} (O : PyOps V) (g l p : PyEnv V) : List PyE → Option (List V)
  | [] => some []
  | e :: es =>
    match evalPy O g l p e, evalPyList O g l p es with
    | some v, some vs => some (v :: vs)
    | _, _ => none
end

/-- The value of the final expression of a program run as a module of its own, in which `r` is defined: there is one namespace, in
which every name is looked up and the assigned variables are put.  (A function is taken to see the variables defined when it was
made; generated programs assign none twice.) -/
def moduleValue {V : Type} (O : PyOps V) : PyEnv V → List (Str × PyE) → PyE → Option V
  | r, [], e => evalPy O r r PyEnv.none e
  | r, (n, e) :: ss, x => (evalPy O r r PyEnv.none e).bind fun v => moduleValue O (r.set n v) ss x

/-- The objects a generated program refers to. -/
structure Modules (V : Type) where
  spark : V
  functions : V
  commands : V
  F : V

/-- a namespace in which they are defined, and nothing else -/
def Modules.env {V : Type} (m : Modules V) : PyEnv V := fun n =>
  if n = c!"commands" then some m.commands
  else if n = c!"functions" then some m.functions
  else if n = c!"spark" then some m.spark
  else if n = c!"F" then some m.F
  else none

mutual
/-- the variables that are used inside lambda expressions and are not parameters of them -/
def lamVars : PyE → List Str
  | .name _ | .num _ _ | .str _ => []
  | .attr e _ | .kwarg _ e | .inv e | .neg e => lamVars e
  | .call f as => lamVars f ++ lamVarsL as
  | .list es | .dict es => lamVarsL es
  | .bin _ a b => lamVars a ++ lamVars b
  | .lam ps e => (vars e).filter fun n => !ps.contains n
/-- the same for a list -/
def lamVarsL : List PyE → List Str
  | [] => []
  | e :: es => lamVars e ++ lamVarsL es
end

/-- the same for a program -/
def PyProg.lamVars (q : PyProg) : List Str := (q.stmts.flatMap fun s => Spec.lamVars s.2) ++ Spec.lamVars q.result

end Verif.Spec
